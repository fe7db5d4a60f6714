import Verif.Props.Backwards
import Verif.Props.RowsMod

/-! Property C47: the complete sequence of row operations of a call. -/

namespace Props
open Rust Rust.Res Spec Spec.Lyra2 Model.Lyra2
open Proofs.Lyra2 (toNat_ofNat64)

/-! ## C47 -/

/-- Row number `r` as a machine integer. -/
abbrev num (r : Nat) : U64 := BitVec.ofNat 64 r

/-- The rows computed by passes `1, ..., T`, pass `τ` going through `pass τ`. -/
def schedule (pass : Nat → List Nat) (T : Nat) : List Nat := (List.range T).flatMap fun t => pass (t + 1)

/-- One row operation of the wandering phase of `lyra2`, given the row to compute: from sponge state, matrix, previous row
and previous `row*`. -/
def rowOp (p : Profile) (R C : U64) (x : State × Matrix × U64 × U64) (row : Nat) : Res (State × Matrix × U64 × U64) := do
  let rowa := x.1[0] &&& (R - 1)
  let (s, m) ← duplexRow p C (rowLen C) x.2.2.1 rowa (num row) x.1 x.2.1
  pure (s, m, num row, rowa)

/-- The same for `lyra2mod`, with the index word carried along. -/
def rowOpMod (p : Profile) (R C : U64) (x : State × Matrix × U64 × U64 × U64) (row : Nat) :
    Res (State × Matrix × U64 × U64 × U64) := do
  let index := x.1[x.2.2.2.2.toNat % 16]'(Nat.mod_lt _ (by decide))
  let rowa := x.1[index.toNat % 16]'(Nat.mod_lt _ (by decide)) &&& (R - 1)
  let (s, m) ← Model.Lyra2mod.duplexRow p C (rowLen C) x.2.2.1 rowa (num row) x.1 x.2.1
  pure (s, m, num row, rowa, index)

theorem usub_one (p : Profile) {R : U64} (h : 1 ≤ R.toNat) : usub p R 1 = pure (R - 1) := by
  have := usub_ofNat p (a := R.toNat) (b := 1) R.isLt h
  rw [ofNat_toNat64] at this
  rw [show (1 : U64) = BitVec.ofNat 64 1 from rfl, this]
  congr 1
  apply BitVec.eq_of_toNat_eq
  rw [toNat_ofNat64 (by have := R.isLt; omega), BitVec.toNat_sub_of_le (by rw [BitVec.le_def]; exact h)]
  rfl

theorem bind_returns {α β : Type} {m : Res α} {f : α → Res β} {b : β} (h : (m >>= f) = pure b) :
    ∃ a, m = pure a ∧ f a = pure b := by
  rcases Res.cases m with ⟨a, rfl⟩ | ⟨e, rfl⟩ | hd
  · exact ⟨a, rfl, by rw [pure_bind] at h; exact h⟩
  · rw [throw_bind] at h; exact (pure_ne_throw h.symm).elim
  · unfold Diverges at hd
    subst hd
    cases h

/-- The part of the loop variables that a row operation works on. -/
def WanderVars.data (v : WanderVars) : State × Matrix × U64 × U64 := (v.state, v.m, v.prev, v.rowa)

theorem num_toNat (x : U64) : num x.toNat = x := ofNat_toNat64 x

/-- What a round of the wandering loop does. -/
theorem body_returns {p : Profile} {R C : U64} (hR : 1 ≤ R.toNat) {step : I64} {v : WanderVars} {o : WanderVars ⊕ WanderVars}
    (h : (wanderBody p R C (rowLen C) step v).Returns o) :
    rowOp p R C (WanderVars.data v) v.row.toNat = pure (WanderVars.data (o.elim id id)) := by
  unfold Returns wanderBody at h
  rw [usub_one p hR, pure_bind] at h
  dsimp only at h
  obtain ⟨⟨s, m⟩, h1, h⟩ := bind_returns h
  dsimp only at h
  obtain ⟨a, -, h⟩ := bind_returns h
  obtain ⟨b, -, h⟩ := bind_returns h
  unfold rowOp WanderVars.data
  dsimp only
  rw [num_toNat, h1, pure_bind]
  congr 1
  split at h
  · have := pure_inj h; subst this; rfl
  · have := pure_inj h; subst this; rfl

/-- A list of rounds is a list of row operations. -/
theorem rounds_ops {p : Profile} {R C : U64} (hR : 1 ≤ R.toNat) {step : I64} {us : List WanderVars} {w : WanderVars}
    (h : Rounds (wanderBody p R C (rowLen C) step) us w) :
    ∀ v vs, us = v :: vs → (us.map fun u => u.row.toNat).foldlM (rowOp p R C) (WanderVars.data v) = pure (WanderVars.data w) := by
  induction h with
  | last h =>
    rintro v vs e
    cases e
    rw [List.map_cons, List.foldlM_cons, body_returns hR h, pure_bind]
    rfl
  | more h t ih =>
    rintro v vs e
    cases e
    rw [List.map_cons, List.foldlM_cons, body_returns hR h, pure_bind]
    exact ih _ _ rfl

theorem foldlM_append' {α σ : Type} (f : σ → α → Res σ) (l l' : List α) (s : σ) :
    (l ++ l').foldlM f s = l.foldlM f s >>= fun s => l'.foldlM f s := by
  rw [List.foldlM_append]

theorem schedule_succ (pass : Nat → List Nat) (T : Nat) : schedule pass (T + 1) = schedule pass T ++ pass (T + 1) := by
  unfold schedule
  rw [List.range_succ, List.flatMap_append]
  simp

theorem forLoop_succ_last {σ : Type} (body : Nat → σ → Res σ) (i n : Nat) (s : σ) :
    forLoop i (n + 1) body s = forLoop i n body s >>= fun s => body (i + n) s := by
  induction n generalizing i s with
  | zero =>
    unfold forLoop forLoop
    rw [pure_bind]
    show (body i s >>= fun s => forLoop (i + 1) 0 body s) = _
    rw [show (fun s => forLoop (i + 1) 0 body s) = pure from funext fun s => by unfold forLoop; rfl, bind_pure]
    rfl
  | succ n ih =>
    rw [forLoop]
    conv_rhs => rw [forLoop]
    rw [bind_assoc]
    congr 1
    funext s
    rw [ih, show i + 1 + n = i + (n + 1) by omega]

/-- **C47** (i) The wandering phase of `lyra2` performs exactly the row operations of its schedule, in order. -/
theorem C47_wander_schedule (p : Profile) (T R C : U64) (hs : Shape R C) (v : WanderVars) (hv : PassStart R C v) :
    ∃ w, (Model.Lyra2.wander p T R C (rowLen C) v).Returns w ∧ PassStart R C w ∧
      ((schedule (Order.mask R.toNat) T.toNat).foldlM (rowOp p R C) (v.state, v.m, v.prev, v.rowa)).Returns
        (w.state, w.m, w.prev, w.rowa) := by
  have hR := hs.rows
  unfold Model.Lyra2.wander
  generalize T.toNat = n
  induction n with
  | zero => exact ⟨v, rfl, hv, rfl⟩
  | succ n ih =>
    obtain ⟨w, h1, h2, h3⟩ := ih
    obtain ⟨step, vs, w', e1, e2, e3, -, e5⟩ := shape_trace p hs (1 + n) h2
    have hmap : (w :: vs).map (fun u => u.row.toNat) = Order.mask R.toNat (1 + n) := by
      have := congrArg (List.map BitVec.toNat) e3
      rw [List.map_map, map_ofNat_toNat] at this
      · exact this
      · intro r hr
        have := Proofs.Lyra2.mask_submask _ r hr
        have h' : r &&& (R.toNat - 1) ≤ R.toNat - 1 := Nat.and_le_right
        have := R.isLt
        omega
    refine ⟨w', ?_, e5, ?_⟩
    · unfold Returns at h1 ⊢
      rw [forLoop_succ_last, h1, pure_bind]
      rw [e1, pure_bind]
      exact Proofs.Lyra2.Rounds.loop e2 _ _ rfl
    · unfold Returns at h3 ⊢
      rw [schedule_succ, foldlM_append', h3, pure_bind, Nat.add_comm n 1, ← hmap]
      exact rounds_ops (by omega) e2 _ _ rfl


/-! The same for `lyra2mod`. -/

def WanderVarsMod.data (v : Model.Lyra2mod.WanderVars) : State × Matrix × U64 × U64 × U64 :=
  (v.state, v.m, v.prev, v.rowa, v.index)

theorem aget_and (s : State) (x : U64) : aget s (x.toNat &&& 0xf) = pure (s[x.toNat % 16]'(Nat.mod_lt _ (by decide))) := by
  have e : x.toNat &&& 0xf = x.toNat % 16 := Nat.and_two_pow_sub_one_eq_mod x.toNat 4
  unfold aget
  rw [dif_pos (by rw [e]; exact Nat.mod_lt _ (by decide))]
  simp only [e]

theorem body_returns_mod {p : Profile} {R C : U64} (hR : 1 ≤ R.toNat) {step : I64} {v : Model.Lyra2mod.WanderVars}
    {o : Model.Lyra2mod.WanderVars ⊕ Model.Lyra2mod.WanderVars}
    (h : (Model.Lyra2mod.wanderBody p R C (rowLen C) step v).Returns o) :
    rowOpMod p R C (WanderVarsMod.data v) v.row.toNat = pure (WanderVarsMod.data (o.elim id id)) := by
  unfold Returns Model.Lyra2mod.wanderBody at h
  rw [aget_and, pure_bind, aget_and, pure_bind, usub_one p hR, pure_bind] at h
  dsimp only at h
  obtain ⟨⟨s, m⟩, h1, h⟩ := bind_returns h
  dsimp only at h
  obtain ⟨a, -, h⟩ := bind_returns h
  obtain ⟨b, -, h⟩ := bind_returns h
  unfold rowOpMod WanderVarsMod.data
  dsimp only
  rw [num_toNat, h1, pure_bind]
  congr 1
  split at h
  · have := pure_inj h; subst this; rfl
  · have := pure_inj h; subst this; rfl

theorem rounds_ops_mod {p : Profile} {R C : U64} (hR : 1 ≤ R.toNat) {step : I64} {us : List Model.Lyra2mod.WanderVars}
    {w : Model.Lyra2mod.WanderVars} (h : Rounds (Model.Lyra2mod.wanderBody p R C (rowLen C) step) us w) :
    ∀ v vs, us = v :: vs →
      (us.map fun u => u.row.toNat).foldlM (rowOpMod p R C) (WanderVarsMod.data v) = pure (WanderVarsMod.data w) := by
  induction h with
  | last h =>
    rintro v vs e
    cases e
    rw [List.map_cons, List.foldlM_cons, body_returns_mod hR h, pure_bind]
    rfl
  | more h t ih =>
    rintro v vs e
    cases e
    rw [List.map_cons, List.foldlM_cons, body_returns_mod hR h, pure_bind]
    exact ih _ _ rfl

/-- **C47** (ii) The wandering phase of `lyra2mod` goes through the same schedule, with its own choice of `row*`. -/
theorem C47_wander_schedule_mod (p : Profile) (T R C : U64) (hs : Shape R C) (v : Model.Lyra2mod.WanderVars)
    (hv : PassStartMod R C v) :
    ∃ w, (Model.Lyra2mod.wander p T R C (rowLen C) v).Returns w ∧ PassStartMod R C w ∧
      ((schedule (Order.mask R.toNat) T.toNat).foldlM (rowOpMod p R C) (v.state, v.m, v.prev, v.rowa, v.index)).Returns
        (w.state, w.m, w.prev, w.rowa, w.index) := by
  have hR := hs.rows
  unfold Model.Lyra2mod.wander
  generalize T.toNat = n
  induction n with
  | zero => exact ⟨v, rfl, hv, rfl⟩
  | succ n ih =>
    obtain ⟨w, h1, h2, h3⟩ := ih
    obtain ⟨step, vs, w', e1, e2, e3, -, e5⟩ := mod_shape_trace p hs (1 + n) h2
    have hmap : (w :: vs).map (fun u => u.row.toNat) = Order.mask R.toNat (1 + n) := by
      have := congrArg (List.map BitVec.toNat) e3
      rw [List.map_map, map_ofNat_toNat] at this
      · exact this
      · intro r hr
        have := Proofs.Lyra2.mask_submask _ r hr
        have h' : r &&& (R.toNat - 1) ≤ R.toNat - 1 := Nat.and_le_right
        have := R.isLt
        omega
    refine ⟨w', ?_, e5, ?_⟩
    · unfold Returns at h1 ⊢
      rw [forLoop_succ_last, h1, pure_bind]
      rw [e1, pure_bind]
      exact Proofs.Lyra2.Rounds.loop e2 _ _ rfl
    · unfold Returns at h3 ⊢
      rw [schedule_succ, foldlM_append', h3, pure_bind, Nat.add_comm n 1, ← hmap]
      exact rounds_ops_mod (by omega) e2 _ _ rfl

/-- **C47** (iii) The schedule, for a power of two of rows: the explicit order of C13, so that `T` passes perform `T * n_rows`
row operations and compute every row exactly `T` times. -/
theorem C47_schedule_pow2 (j : Nat) (hj : 2 ≤ j) (T : Nat) :
    schedule (Order.mask (2 ^ j)) T = (List.range T).flatMap (fun t => (List.range (2 ^ j)).map fun i =>
      if t % 2 = 0 then i * (2 ^ j / 2 - 1) % 2 ^ j else (2 ^ j - i) % 2 ^ j) ∧
    (schedule (Order.mask (2 ^ j)) T).length = T * 2 ^ j ∧
    ∀ r, r < 2 ^ j → (schedule (Order.mask (2 ^ j)) T).count r = T := by
  refine ⟨?_, ?_, fun r hr => ?_⟩
  · unfold schedule
    congr 1
    funext t
    by_cases h : t % 2 = 0
    · rw [Proofs.Lyra2.mask_odd hj (t + 1) (by omega)]
      simp only [if_pos h]
    · rw [Proofs.Lyra2.mask_even hj (t + 1) (by omega)]
      simp only [if_neg h]
  · induction T with
    | zero => rw [Nat.zero_mul]; rfl
    | succ T ih =>
      rw [schedule_succ, List.length_append, ih, (Proofs.Lyra2.mask_perm hj _).length_eq, List.length_range, Nat.succ_mul]
  · induction T with
    | zero => rfl
    | succ T ih =>
      rw [schedule_succ, List.count_append, ih, (Proofs.Lyra2.mask_perm hj _).count_eq, List.count_eq_one_of_mem List.nodup_range
        (List.mem_range.mpr hr)]

/-- **C47** (iv) For any number of rows: at most `T * n_rows` row operations, all of them on rows of the matrix. -/
theorem C47_schedule_bound (R T : Nat) (hR : 1 ≤ R) :
    (schedule (Order.mask R) T).length ≤ T * R ∧ ∀ r ∈ schedule (Order.mask R) T, r < R := by
  unfold schedule
  constructor
  · rw [List.length_flatMap]
    induction T with
    | zero => simp
    | succ T ih =>
      rw [List.range_succ, List.map_append, List.sum_append]
      have := Proofs.Lyra2.orbit_length (maskNext R (T + 1)) R 0
      simp only [List.map_cons, List.map_nil, List.sum_cons, List.sum_nil, Order.mask] at *
      rw [Nat.succ_mul]
      omega
  · intro r hr
    obtain ⟨t, -, h⟩ := List.mem_flatMap.mp hr
    have := Proofs.Lyra2.mask_submask _ r h
    have h' : r &&& (R - 1) ≤ R - 1 := Nat.and_le_right
    omega

/-- The two schedules of `lyra2re` and `lyra2z` begin with the same pass; `lyra2z` goes on with an even one. -/
example : schedule (Order.mask 8) 1 = [0, 3, 6, 1, 4, 7, 2, 5] ∧
    schedule (Order.mask 8) 2 = [0, 3, 6, 1, 4, 7, 2, 5, 0, 7, 6, 5, 4, 3, 2, 1] ∧ (schedule (Order.mask 8) 8).length = 64 := by
  decide

/-- With 5 rows a pass has one or two row operations instead of five. -/
example : schedule (Order.mask 5) 4 = [0, 0, 4, 0, 0, 4] := by decide

/-- Rows `2, ..., R - 1` of the setup phase: row `r` from row `r - 1` and row `setupStar r`. -/
theorem setupRows_ops (p : Profile) {R C : U64} (hs : Shape R C) (s : State) (m : Matrix) :
    Model.Lyra2.setupRows p R C (rowLen C) s m = (do
      let x ← (List.range (R.toNat - 2)).foldlM (fun x i =>
        duplexRowSetup p C (rowLen C) (num (i + 1)) (num (setupStar (i + 2))) (num (i + 2)) x.1 x.2) (s, m)
      pure (x.1, x.2, Proofs.Lyra2.setupVars R.toNat)) := by
  have hR := hs.rows_lt
  have h3 := hs.rows
  have e : irangeLen 2 R = R.toNat - 2 := by
    have := irangeLen_ofNat (a := 2) (b := R.toNat) (by omega) (by omega)
    rwa [ofNat_toNat64] at this
  have key : ∀ n, n + 2 ≤ R.toNat → forLoop 2 n (fun _ (x : State × Matrix × SetupVars) => do
      let (state, m) ← duplexRowSetup p C (rowLen C) x.2.2.prev x.2.2.rowa x.2.2.row x.1 x.2.1
      let v ← x.2.2.next p
      pure (state, m, v)) (s, m, Proofs.Lyra2.setupVars 2) = (do
      let x ← (List.range n).foldlM (fun x i =>
        duplexRowSetup p C (rowLen C) (num (i + 1)) (num (setupStar (i + 2))) (num (i + 2)) x.1 x.2) (s, m)
      pure (x.1, x.2, Proofs.Lyra2.setupVars (n + 2))) := by
    intro n
    induction n with
    | zero => intro _; rfl
    | succ n ih =>
      intro hn
      rw [forLoop_succ_last, ih (by omega), List.range_succ, foldlM_append']
      simp only [bind_assoc, pure_bind, List.foldlM_cons, List.foldlM_nil, bind_pure]
      congr 1
      funext x
      have hv : (Proofs.Lyra2.setupVars (n + 2)).next p = pure (Proofs.Lyra2.setupVars (n + 1 + 2)) :=
        Proofs.Lyra2.setupVars_next p (by omega) (by omega)
      rw [hv]
      simp only [pure_bind]
      rfl
  have := key (R.toNat - 2) (by omega)
  unfold Model.Lyra2.setupRows
  rw [e, Proofs.Lyra2.setupVars_start]
  rw [show R.toNat - 2 + 2 = R.toNat by omega] at this
  exact this

/-- **C47** (v) An accepted call of `lyra2`, row operation by row operation: rows 0 and 1, rows `2, ..., n_rows - 1` each from its
predecessor and `setupStar` of it (C12), the schedule of the wandering phase starting with the last row as previous row, and
the final absorption of the first block of the last `row*`. -/
theorem C47_call (p : Profile) (k T R C : U64) (pwd salt : List U8) (h : Accepts k pwd.length salt.length T R C) :
    ∃ s₀ m₀, (absorbedState p k pwd salt T R C).Returns s₀ ∧ m₀.size = 12 * (R.toNat * C.toNat) ∧
      lyra2 p k pwd salt T R C = (do
        let (s, m) ← squeezeRow0 p C s₀ m₀
        let (s, m) ← duplexRow1 p C (rowLen C) s m
        let (s, m) ← (List.range (R.toNat - 2)).foldlM (fun x i =>
          duplexRowSetup p C (rowLen C) (num (i + 1)) (num (setupStar (i + 2))) (num (i + 2)) x.1 x.2) (s, m)
        let (s, m, _, rowa) ← (schedule (Order.mask R.toNat) T.toNat).foldlM (rowOp p R C)
          (s, m, num (R.toNat - 1), num (setupStar R.toNat))
        let block ← splitRight m (12 * C.toNat * rowa.toNat)
        let s ← absorb_block s block
        Model.Lyra2.squeeze p s k) := by
  have hC := Proofs.Lyra2.Domain.cols (domain_iff.2 h)
  have hs : Shape R C := ⟨h.2.1, hC, h.2.2.2.1⟩
  have hlt := hs.rows_lt
  have h3 := hs.rows
  obtain ⟨e, m₀, hm₀, s₀, hs₀, hb⟩ := C46_phases p k T R C pwd salt h
  refine ⟨s₀, m₀, hs₀, hm₀, ?_⟩
  obtain ⟨x, hx, ⟨-, hrep⟩, -⟩ := setupPhase_ok p hs s₀ hm₀
  have hb' := hb
  rw [hx] at hb'
  unfold setupPhase at hx
  obtain ⟨⟨s₁, m₁⟩, e1, hx⟩ := bind_returns hx
  dsimp only at hx
  obtain ⟨⟨s₂, m₂⟩, e2, hx⟩ := bind_returns hx
  dsimp only at hx
  rw [setupRows_ops p hs] at hx
  obtain ⟨⟨s₃, m₃⟩, e3, hx⟩ := bind_returns hx
  have hx := pure_inj hx
  subst hx
  have hstar : setupStar R.toNat < R.toNat := by
    have := Proofs.Lyra2.setupStar_lt (show 2 ≤ R.toNat by omega)
    omega
  have hv : PassStart R C { state := s₃, m := m₃, prev := num (R.toNat - 1), row := 0, rowa := num (setupStar R.toNat) } :=
    ⟨hrep.1, rfl, by show (num (R.toNat - 1)).toNat < _; rw [toNat_ofNat64 (by omega)]; omega,
      by show (num (setupStar R.toNat)).toNat < _; rw [toNat_ofNat64 (by omega)]; exact hstar⟩
  obtain ⟨w, hw1, hw2, hw3⟩ := C47_wander_schedule p T R C hs _ hv
  unfold Returns at hw1 hw3
  dsimp only at hw3
  rw [e1, pure_bind]
  dsimp only
  rw [e2, pure_bind]
  dsimp only
  rw [e3, pure_bind]
  dsimp only
  rw [hw3, pure_bind, e, hb', pure_bind]
  dsimp only
  rw [show (Proofs.Lyra2.setupVars R.toNat).prev = num (R.toNat - 1) from rfl,
    show (Proofs.Lyra2.setupVars R.toNat).rowa = num (setupStar R.toNat) from rfl, hw1, pure_bind]
  unfold wrapUp
  have hbound := hs.bound
  have hrow : w.rowa.toNat * (12 * C.toNat) < 2 ^ 60 := by
    calc w.rowa.toNat * (12 * C.toNat) ≤ R.toNat * (12 * C.toNat) := Nat.mul_le_mul_right _ (Nat.le_of_lt hw2.rowa)
      _ = 12 * (R.toNat * C.toNat) := by ring
      _ < 2 ^ 60 := hbound
  have hCb : 12 * C.toNat < 2 ^ 60 := by
    calc 12 * C.toNat = 1 * (12 * C.toNat) := by ring
      _ ≤ R.toNat * (12 * C.toNat) := Nat.mul_le_mul_right _ (by omega)
      _ = 12 * (R.toNat * C.toNat) := by ring
      _ < 2 ^ 60 := hbound
  have := imul_ofNat p (a := w.rowa.toNat) (b := 12 * C.toNat) (by have := hw2.rowa; omega) (by omega) (by omega)
  rw [ofNat_toNat64] at this
  unfold rowLen
  rw [this, pure_bind, toNat_ofNat64 (by omega), Nat.mul_comm w.rowa.toNat]

/-- The parameters of `lyra2::sum` on a 32-byte digest: rows 2 and 3 are computed from rows 1, 0 and 2, 1; the pass visits rows
0, 1, 2, 3. -/
example : Accepts 32 32 32 1 4 4 ∧ (List.range 2).map (fun i => (i + 2, i + 1, setupStar (i + 2))) = [(2, 1, 0), (3, 2, 1)] ∧
    schedule (Order.mask 4) 1 = [0, 1, 2, 3] :=
  ⟨by unfold Accepts isizeMax; decide, by decide, by decide⟩

/-! ## C48 -/

/-- **C48** (i) Up to the wandering phase `lyra2mod` is `lyra2`: an accepted call absorbs the same input and starts the wandering
phase with the same sponge state, matrix, previous row and `row*`. So C09, C12, C16, C23 and C46 hold for it as well. -/
theorem C48_same_start (p : Profile) (k T R C : U64) (pwd salt : List U8) (h : Accepts k pwd.length salt.length T R C) :
    ∃ s m v, (beforeWander p k pwd salt T R C).Returns (s, m, v) ∧ v.prev = num (R.toNat - 1) ∧ v.rowa = num (setupStar R.toNat) ∧
      PassStart R C { state := s, m := m, prev := num (R.toNat - 1), row := 0, rowa := num (setupStar R.toNat) } ∧
      lyra2 p k pwd salt T R C = (do
        let w ← Model.Lyra2.wander p T R C (rowLen C)
          { state := s, m := m, prev := num (R.toNat - 1), row := 0, rowa := num (setupStar R.toNat) }
        Model.Lyra2.wrapUp p k (rowLen C) w) ∧
      Model.Lyra2mod.lyra2mod p k pwd salt T R C = (do
        let w ← Model.Lyra2mod.wander p T R C (rowLen C)
          { state := s, m := m, prev := num (R.toNat - 1), row := 0, rowa := num (setupStar R.toNat), index := 0 }
        Model.Lyra2mod.wrapUp p k (rowLen C) w) := by
  have hC := Proofs.Lyra2.Domain.cols (domain_iff.2 h)
  have hs : Shape R C := ⟨h.2.1, hC, h.2.2.2.1⟩
  have hlt := hs.rows_lt
  have h3 := hs.rows
  obtain ⟨e, m₀, hm₀, s₀, hs₀, hb⟩ := C46_phases p k T R C pwd salt h
  obtain ⟨x, hx, ⟨-, hrep⟩, hv⟩ := setupPhase_ok p hs s₀ hm₀
  rw [hx] at hb
  obtain ⟨s, m, v⟩ := x
  dsimp only at hv hrep
  subst hv
  have hstar : setupStar R.toNat < R.toNat := by
    have := Proofs.Lyra2.setupStar_lt (show 2 ≤ R.toNat by omega)
    omega
  refine ⟨s, m, _, hb, rfl, rfl, ⟨hrep.1, rfl, ?_, ?_⟩, ?_, ?_⟩
  · show (num (R.toNat - 1)).toNat < _; rw [toNat_ofNat64 (by omega)]; omega
  · show (num (setupStar R.toNat)).toNat < _; rw [toNat_ofNat64 (by omega)]; exact hstar
  · rw [e, hb, pure_bind]; rfl
  · obtain ⟨hT, hR, hk, hmem, hin⟩ := h
    have hM := hs.bound
    have halloc := Proofs.Lyra2.allocMatrix_ok p (show 0 < R.toNat by omega) hM hC
    rw [ofNat_toNat64, ofNat_toNat64] at halloc
    unfold beforeWander setupPhase at hb
    rw [halloc, pure_bind] at hb
    rw [Proofs.Lyra2.lyra2mod_front, if_neg (by omega), if_neg (by omega)]
    unfold Proofs.Lyra2.front
    rw [halloc]
    simp only [pure_bind, bind_assoc] at hb ⊢
    obtain ⟨n, hn, hb⟩ := bind_returns hb
    rw [hn, pure_bind]
    obtain ⟨m1, hm1, hb⟩ := bind_returns hb
    rw [hm1, pure_bind]
    obtain ⟨s1, hs1, hb⟩ := bind_returns hb
    rw [hs1, pure_bind]
    obtain ⟨x2, hx2, hb⟩ := bind_returns hb
    rw [hx2, pure_bind]
    obtain ⟨x3, hx3, hb⟩ := bind_returns hb
    rw [hx3, pure_bind, hb, pure_bind]
    rfl

/-- **C47** (vi) The same for `lyra2mod`: the same rows in the same order, with its own choice of `row*`. -/
theorem C47_call_mod (p : Profile) (k T R C : U64) (pwd salt : List U8) (h : Accepts k pwd.length salt.length T R C) :
    ∃ s₀ m₀, (absorbedState p k pwd salt T R C).Returns s₀ ∧ m₀.size = 12 * (R.toNat * C.toNat) ∧
      Model.Lyra2mod.lyra2mod p k pwd salt T R C = (do
        let (s, m) ← squeezeRow0 p C s₀ m₀
        let (s, m) ← duplexRow1 p C (rowLen C) s m
        let (s, m) ← (List.range (R.toNat - 2)).foldlM (fun x i =>
          duplexRowSetup p C (rowLen C) (num (i + 1)) (num (setupStar (i + 2))) (num (i + 2)) x.1 x.2) (s, m)
        let (s, m, _, rowa, _) ← (schedule (Order.mask R.toNat) T.toNat).foldlM (rowOpMod p R C)
          (s, m, num (R.toNat - 1), num (setupStar R.toNat), 0)
        let block ← splitRight m (12 * C.toNat * rowa.toNat)
        let s ← absorb_block s block
        Model.Lyra2.squeeze p s k) := by
  have hC := Proofs.Lyra2.Domain.cols (domain_iff.2 h)
  have hs : Shape R C := ⟨h.2.1, hC, h.2.2.2.1⟩
  have hlt := hs.rows_lt
  have h3 := hs.rows
  obtain ⟨-, m₀, hm₀, s₀, hs₀, hb⟩ := C46_phases p k T R C pwd salt h
  obtain ⟨s, m, v, hv1, hv2, hv3, hstart, -, e⟩ := C48_same_start p k T R C pwd salt h
  refine ⟨s₀, m₀, hs₀, hm₀, ?_⟩
  unfold Returns at hv1
  rw [hb] at hv1
  unfold setupPhase at hv1
  obtain ⟨⟨s₁, m₁⟩, e1, hx⟩ := bind_returns hv1
  dsimp only at hx
  obtain ⟨⟨s₂, m₂⟩, e2, hx⟩ := bind_returns hx
  dsimp only at hx
  rw [setupRows_ops p hs] at hx
  obtain ⟨⟨s₃, m₃⟩, e3, hx⟩ := bind_returns hx
  cases pure_inj hx
  obtain ⟨w, hw1, hw2, hw3⟩ := C47_wander_schedule_mod p T R C hs
    { state := s₃, m := m₃, prev := num (R.toNat - 1), row := 0, rowa := num (setupStar R.toNat), index := 0 }
    ⟨hstart.size, rfl, hstart.prev, hstart.rowa⟩
  unfold Returns at hw1 hw3
  dsimp only at hw3
  rw [e1, pure_bind]
  dsimp only
  rw [e2, pure_bind]
  dsimp only
  rw [e3, pure_bind]
  dsimp only
  rw [hw3, pure_bind, e, hw1, pure_bind]
  unfold Model.Lyra2mod.wrapUp
  have hbound := hs.bound
  have hrow : w.rowa.toNat * (12 * C.toNat) < 2 ^ 60 := by
    calc w.rowa.toNat * (12 * C.toNat) ≤ R.toNat * (12 * C.toNat) := Nat.mul_le_mul_right _ (Nat.le_of_lt hw2.rowa)
      _ = 12 * (R.toNat * C.toNat) := by ring
      _ < 2 ^ 60 := hbound
  have hCb : 12 * C.toNat < 2 ^ 60 := by
    calc 12 * C.toNat = 1 * (12 * C.toNat) := by ring
      _ ≤ R.toNat * (12 * C.toNat) := Nat.mul_le_mul_right _ (by omega)
      _ = 12 * (R.toNat * C.toNat) := by ring
      _ < 2 ^ 60 := hbound
  have := imul_ofNat p (a := w.rowa.toNat) (b := 12 * C.toNat) (by have := hw2.rowa; omega) (by omega) (by omega)
  rw [ofNat_toNat64] at this
  unfold rowLen
  rw [this, pure_bind, toNat_ofNat64 (by omega), Nat.mul_comm w.rowa.toNat, Proofs.Lyra2.mod_squeeze, Proofs.Lyra2.mod_absorb_block]

theorem masked_ne_rev3 : masked 2 [] [] 1 4 1 ≠ rev3Masked 2 [] [] 1 4 1 := by decide +kernel

/-- **C48** (ii) The results differ: the two functions are not interchangeable. -/
theorem C48_not_lyra2 :
    ∃ (k T R C : U64) (pwd salt out out' : List U8), (lyra2 .release k pwd salt T R C).Returns out ∧
      (Model.Lyra2mod.lyra2mod .release k pwd salt T R C).Returns out' ∧ out ≠ out' :=
  ⟨2, 1, 4, 1, [], [], _, _, C06_lyra2_result .release 2 1 4 1 [] [] (by unfold Accepts isizeMax; decide),
    C20_lyra2mod_result .release 2 1 4 1 [] [] (by unfold Accepts isizeMax; decide), masked_ne_rev3⟩

end Props

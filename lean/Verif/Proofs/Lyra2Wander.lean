import Verif.Proofs.Orbit

/-! The wandering phase simulates the specification's. -/

namespace Proofs.Lyra2
open Rust Rust.Res Model.Lyra2 Spec Spec.Lyra2 Proofs.Sponge

/-! ## The loops, for any selection rule -/

/-- What a pass's loop body establishes: `inl` continues with row `next`, `inr` leaves because `next` is row 0. -/
def PassPost {σ : Type} (RW : σ → Nat → Wander → Prop) (next : Nat) (V' : Wander) : σ ⊕ σ → Prop
  | .inl v' => next ≠ 0 ∧ RW v' next V'
  | .inr v' => next = 0 ∧ RW v' 0 V'

/-- A `loop` whose body performs one row operation and advances the row with `maskNext` until row 0 comes up
performs the row operations of `Order.mask`. -/
theorem pass_sim {σ : Type} {R C τ : Nat} {pick : Pick} {body : σ → Res (σ ⊕ σ)} (RW : σ → Nat → Wander → Prop)
    (hR : 0 < R)
    (step : ∀ v x V, x < R → RW v x V → (body v).Sat (PassPost RW (maskNext R τ x) (wanderRow pick C V x)))
    (fuel n : Nat) (hn : 1 ≤ n) (hf : n ≤ fuel) (x : Nat) (hx : x < R) (hret : (maskNext R τ)^[n] x = 0)
    (v : σ) (V : Wander) (h : RW v x V) :
    (loop body v).Sat (fun v' => RW v' 0 ((orbit (maskNext R τ) fuel x).foldl (wanderRow pick C) V)) := by
  induction fuel generalizing n x v V with
  | zero => omega
  | succ fuel ih =>
    rw [loop_step]
    refine Sat.bind (step v x V hx h) fun r hr => ?_
    unfold orbit
    match r with
    | .inl v' =>
      obtain ⟨h1, h2⟩ := hr
      rw [if_neg h1, List.foldl_cons]
      obtain ⟨n', rfl⟩ : ∃ n', n = n' + 1 := ⟨n - 1, by omega⟩
      rw [Function.iterate_succ_apply] at hret
      have hn' : 1 ≤ n' := by
        by_contra hc
        have : n' = 0 := by omega
        subst this
        exact h1 hret
      exact ih n' hn' (by omega) _ (maskNext_lt hR _ _) hret v' _ h2
    | .inr v' =>
      obtain ⟨h1, h2⟩ := hr
      rw [if_pos h1, List.foldl_cons, List.foldl_nil]
      exact .pure h2

/-- All passes. -/
theorem passes_sim {σ : Type} {R C T : Nat} {pick : Pick} {pass : Nat → σ → Res σ} (RW : σ → Nat → Wander → Prop)
    (step : ∀ τ v V, RW v 0 V → (pass τ v).Sat (fun v' => RW v' 0 ((Order.mask R τ).foldl (wanderRow pick C) V)))
    (v : σ) (V : Wander) (h : RW v 0 V) :
    (forLoop 1 T pass v).Sat (fun v' => RW v' 0 (Spec.Lyra2.wander (Order.mask R) pick T C V)) := by
  unfold Spec.Lyra2.wander
  refine forLoop_sat (fun j v' => RW v' 0 ((List.range j).foldl
    (fun v i => (Order.mask R (i + 1)).foldl (wanderRow pick C) v) V)) 1 T v h fun j v' _ hv => ?_
  rw [List.range_succ, List.foldl_append, Nat.add_comm 1 j]
  exact step _ _ _ hv

/-! ## The row update -/

theorem isub_step (p : Profile) {R : Nat} (h : 3 ≤ R) (h' : R < 2 ^ 60) :
    isub p (idiv (BitVec.ofNat 64 R) 2) 1 = pure (BitVec.ofNat 64 (R / 2 - 1)) := by
  rw [show (2 : BitVec 64) = BitVec.ofNat 64 2 from rfl, idiv_ofNat (by omega) (by omega),
    show (1 : BitVec 64) = BitVec.ofNat 64 1 from rfl, isub_ofNat p (by omega) (by omega)]

theorem wanderStep_ok (p : Profile) {R : Nat} (h : 3 ≤ R) (h' : R < 2 ^ 60) (τ : Nat) :
    wanderStep p (BitVec.ofNat 64 R) τ = pure (stepOf R τ) := by
  unfold wanderStep stepOf
  rw [isub_step p h h', pure_bind]
  by_cases hp : τ % 2 = 0
  · rw [if_pos hp, if_pos hp]; rfl
  · rw [if_neg hp, if_neg hp]

theorem iadd_step (p : Profile) {R : Nat} (h : 3 ≤ R) (h' : R < 2 ^ 60) (τ : Nat) {x : Nat} (hx : x < R) :
    iadd p (BitVec.ofNat 64 x) (stepOf R τ) = pure (BitVec.ofNat 64 x + stepOf R τ) := by
  unfold stepOf
  by_cases hp : τ % 2 = 0
  · rw [if_pos hp]
    by_cases h0 : x = 0
    · subst h0
      unfold iadd
      rw [show BitVec.saddOverflow (BitVec.ofNat 64 0) (-1#64) = false by decide, Bool.and_false]
      rfl
    · rw [iadd_neg_one p (by omega) (by omega)]
      refine congrArg pure ?_
      apply BitVec.eq_of_toNat_eq
      rw [BitVec.toNat_add, show (-1#64).toNat = 2 ^ 64 - 1 by decide]
      simp only [BitVec.toNat_ofNat]
      omega
  · rw [if_neg hp, iadd_ofNat p (by omega), BitVec.ofNat_add]

theorem isub_one (p : Profile) {R : Nat} (h : 1 ≤ R) (h' : R < 2 ^ 60) :
    isub p (BitVec.ofNat 64 R) 1 = pure (BitVec.ofNat 64 (R - 1)) := by
  rw [show (1 : BitVec 64) = BitVec.ofNat 64 1 from rfl, isub_ofNat p (by omega) (by omega)]

theorem usub_one (p : Profile) {R : Nat} (h : 1 ≤ R) (h' : R < 2 ^ 60) :
    usub p (BitVec.ofNat 64 R) 1 = pure (BitVec.ofNat 64 (R - 1)) := by
  rw [show (1 : BitVec 64) = BitVec.ofNat 64 1 from rfl, usub_ofNat p (by omega) (by omega)]

theorem and_mask (w : U64) {R : Nat} (h : 1 ≤ R) (h' : R < 2 ^ 60) :
    w &&& BitVec.ofNat 64 (R - 1) = BitVec.ofNat 64 (w.toNat &&& (R - 1)) ∧ w.toNat &&& (R - 1) < R := by
  have h1 : w.toNat &&& (R - 1) ≤ R - 1 := Nat.and_le_right
  refine ⟨?_, by omega⟩
  apply BitVec.eq_of_toNat_eq
  rw [BitVec.toNat_and, toNat_ofNat64 (by omega), toNat_ofNat64 (by omega)]

theorem ofNat_eq_zero {a : Nat} (h : a < 2 ^ 60) : BitVec.ofNat 64 a = 0 ↔ a = 0 := by
  rw [show (0 : BitVec 64) = BitVec.ofNat 64 0 from rfl, ofNat_inj64 (by omega) (by omega)]

/-! ## The wandering phase of `lyra2` -/

/-- The variables of the code represent those of the specification; `x` is the next row. -/
structure RepW (R C : Nat) (v : WanderVars) (x : Nat) (V : Wander) : Prop where
  s : v.state = V.s
  m : Rep R C v.m V.M
  prev : v.prev = BitVec.ofNat 64 V.prev
  prev_lt : V.prev < R
  row : v.row = BitVec.ofNat 64 x
  rowa : v.rowa = BitVec.ofNat 64 V.rowStar
  rowa_lt : V.rowStar < R

theorem wanderBody_ok {R C : Nat} (p : Profile) (hM : 12 * (R * C) < 2 ^ 60) (hR : 3 ≤ R) (hC : 0 < C) (τ : Nat)
    (v : WanderVars) (x : Nat) (V : Wander) (hx : x < R) (h : RepW R C v x V) :
    (wanderBody p (BitVec.ofNat 64 R) (BitVec.ofNat 64 C) (BitVec.ofNat 64 (12 * C)) (stepOf R τ) v).Sat
      (PassPost (RepW R C) (maskNext R τ x) (wanderRow (Pick.mask R) C V x)) := by
  obtain ⟨-, -, -, -, hR', -, -⟩ := bounds hM hx hC
  obtain ⟨hs, hm, hp, hp', hrow, -, -⟩ := h
  unfold wanderBody
  rw [usub_one p (by omega) hR', pure_bind, (and_mask _ (by omega) hR').1, hp, hrow]
  have ha := (and_mask v.state[0] (show 1 ≤ R by omega) hR').2
  refine Sat.bind (duplexRow_ok p hM hm hp' ha hx hC) fun y hy => ?_
  obtain ⟨s', m'⟩ := y
  dsimp only
  rw [iadd_step p hR hR' τ hx, pure_bind, isub_one p (by omega) hR', pure_bind,
    ← maskNext_bv (by omega) (by omega) τ x hx]
  have hz : BitVec.ofNat 64 (maskNext R τ x) = 0 ↔ maskNext R τ x = 0 :=
    ofNat_eq_zero (by have := maskNext_lt (show 0 < R by omega) τ x; omega)
  have hrep : ∀ z, RepW R C ⟨s', m', BitVec.ofNat 64 x, BitVec.ofNat 64 z,
      BitVec.ofNat 64 (v.state[0].toNat &&& (R - 1))⟩ z (wanderRow (Pick.mask R) C V x) := by
    intro z
    have hy' := hy
    rw [hs] at hy'
    exact ⟨hy'.1, hy'.2, rfl, hx, rfl, by rw [hs]; rfl, by rw [hs] at ha; exact ha⟩
  by_cases h0 : maskNext R τ x = 0
  · rw [if_pos (hz.2 h0), h0]; exact .pure ⟨rfl, hrep 0⟩
  · rw [if_neg (mt hz.1 h0)]; exact .pure ⟨h0, hrep _⟩

theorem wander_ok {R C : Nat} (p : Profile) (hM : 12 * (R * C) < 2 ^ 60) (hR : 3 ≤ R) (hC : 0 < C) (T : U64)
    {v : WanderVars} {V : Wander} (h : RepW R C v 0 V) :
    (Model.Lyra2.wander p T (BitVec.ofNat 64 R) (BitVec.ofNat 64 C) (BitVec.ofNat 64 (12 * C)) v).Sat
      (fun v' => RepW R C v' 0 (Spec.Lyra2.wander (Order.mask R) (Pick.mask R) T.toNat C V)) := by
  obtain ⟨-, -, -, -, hR', -, -⟩ := bounds hM (show 0 < R by omega) hC
  unfold Model.Lyra2.wander
  refine passes_sim (RepW R C) (fun τ v V hv => ?_) v V h
  rw [wanderStep_ok p hR hR', pure_bind]
  obtain ⟨n, hn1, hn2, hn3⟩ := maskNext_returns (show 0 < R by omega) (by omega) τ
  exact pass_sim (RepW R C) (by omega) (fun v x V hx hv => wanderBody_ok p hM hR hC τ v x V hx hv) R n hn1 hn2 0
    (by omega) hn3 v V hv

/-- The first row operation forgets the previous `row*`. -/
theorem wander_forget (order : Order) (pick : Pick) (T C : Nat) (V : Wander) (a : Nat) (hT : 1 ≤ T)
    (hne : order 1 ≠ []) :
    Spec.Lyra2.wander order pick T C { V with rowStar := a } = Spec.Lyra2.wander order pick T C V := by
  unfold Spec.Lyra2.wander
  obtain ⟨T', rfl⟩ : ∃ T', T = T' + 1 := ⟨T - 1, by omega⟩
  rw [List.range_succ_eq_map, List.foldl_cons, List.foldl_cons]
  congr 1
  rw [Nat.zero_add]
  cases ho : order 1 with
  | nil => exact absurd ho hne
  | cons x xs => rfl

theorem mask_ne_nil {R : Nat} (hR : 0 < R) (τ : Nat) : Order.mask R τ ≠ [] := by
  unfold Order.mask
  obtain ⟨R', rfl⟩ : ∃ R', R = R' + 1 := ⟨R - 1, by omega⟩
  simp [orbit]

/-! ## Wrap-up -/

/-- The full-rate absorb of the code, on the block at the start of a row. -/
theorem absorb_block_ok {R C r : Nat} {m : Matrix} {M : Mem} (hm : Rep R C m M) (hr : r < R) (hC : 0 < C) (s : State)
    (p : Profile) (hM : 12 * (R * C) < 2 ^ 60) :
    (do
      let at_ ← imul p (BitVec.ofNat 64 r) (BitVec.ofNat 64 (12 * C))
      let right ← splitRight m at_.toNat
      absorb_block s right) = pure (f (xorRate s (M r 0))) := by
  obtain ⟨h1, h2, h3, h4, h5, h6, h7⟩ := bounds hM hr hC
  rw [imul_ofNat p (by omega) (by omega) (by omega), pure_bind, toNat_ofNat64 (by omega)]
  unfold splitRight
  rw [if_pos (by rw [hm.1]; omega), pure_bind]
  unfold absorb_block
  rw [absorb12 s (M r 0) _ (fun j s' => ?_), pure_bind, blake2b_eq]
  have hw := j.isLt
  have hm' := hm.2 r hr 0 hC j
  rw [h7, Nat.zero_mul, Nat.zero_add] at hm'
  have e : vget (m.extract (r * (12 * C)) m.size) j = pure (M r 0)[j] := by
    unfold vget
    rw [Array.getElem?_extract, if_pos (by rw [hm.1]; omega), hm']
  rw [e, pure_bind]

/-! ## Squeezing -/

theorem rateBytes_length (s : State) : ((s.toList.take 12).flatMap toLeBytes64).length = 96 := by
  rw [List.length_flatMap]
  have : (List.map (fun a => (toLeBytes64 a).length) (s.toList.take 12)) = List.replicate 12 8 := by
    rw [List.eq_replicate_iff]
    simp [Bytes.toLeBytes64_length]
  rw [this]
  rfl

/-- For at most 96 bytes, `squeeze` returns the first bytes of the state. -/
theorem squeeze_ok (p : Profile) (s : State) {k : Nat} (hk : k ≤ 96) :
    Model.Lyra2.squeeze p s (BitVec.ofNat 64 k) = pure (((s.toList.take 12).flatMap toLeBytes64).take k) := by
  unfold Model.Lyra2.squeeze
  rw [show BLOCKLENBYTES = BitVec.ofNat 64 96 from rfl, idiv_ofNat (by omega) (by omega),
    show (1 : BitVec 64) = BitVec.ofNat 64 1 from rfl, toNat_ofNat64 (by omega), iadd_ofNat p (by omega)]
  unfold vecOf
  rw [if_pos (by unfold isizeMax; omega), pure_bind, pure_bind, show (0 : BitVec 64) = BitVec.ofNat 64 0 from rfl,
    irangeLen_ofNat (by omega) (by omega)]
  have := forLoop_sat (fun j (x : List U8 × List U8 × State) =>
      (j = 0 → x = ([], (Array.replicate k (0 : U8)).toList, s)) ∧
      (0 < j → (s.toList.take 12).flatMap toLeBytes64 <+: x.1 ∧
        x.2.1 = ((s.toList.take 12).flatMap toLeBytes64).take k)) 0 (k / 96 + 1 - 0)
    ([], (Array.replicate k (0 : U8)).toList, s) ⟨fun _ => rfl, fun h => absurd h (by omega)⟩
    (body := fun _ (tmp, _, state) => do
      let tmp := tmp ++ (state.toList.take 12).flatMap toLeBytes64
      let out ← slice tmp 0 k
      let state := blake2b_lyra state
      pure (tmp, out, state)) ?_
  · obtain ⟨x, h1, h2⟩ := this
    rw [h1, pure_bind]
    rw [← (h2.2 (by omega)).2]
  · rintro j ⟨tmp, out, st⟩ hj ⟨h1, h2⟩
    simp only at h1 h2 ⊢
    have hpre : (s.toList.take 12).flatMap toLeBytes64 <+: tmp ++ (st.toList.take 12).flatMap toLeBytes64 := by
      by_cases h0 : j = 0
      · have h1 := h1 h0
        simp only [Prod.mk.injEq] at h1
        obtain ⟨rfl, -, rfl⟩ := h1
        simp
      · exact (h2 (by omega)).1.trans (List.prefix_append _ _)
    have hlen := rateBytes_length s
    obtain ⟨t, ht⟩ := hpre
    rw [← ht]
    rw [Bytes.slice_ok (by omega) (by rw [List.length_append, hlen]; omega), pure_bind]
    refine .pure ⟨fun h => absurd h (by omega), fun _ => ⟨List.prefix_append _ _, ?_⟩⟩
    simp only [List.drop_zero, Nat.sub_zero]
    rw [List.take_append_of_le_length (by omega)]

/-- For more than 96 bytes, `squeeze` panics. -/
theorem squeeze_panics (p : Profile) (s : State) {k : U64} (hk : 96 < k.toNat) : (Model.Lyra2.squeeze p s k).Panics := by
  unfold Model.Lyra2.squeeze vecOf
  by_cases hbig : 1 * k.toNat ≤ isizeMax
  · rw [if_pos hbig, pure_bind]
    unfold isizeMax at hbig
    have hk' : k = BitVec.ofNat 64 k.toNat := by simp
    have hi : iadd p (idiv k BLOCKLENBYTES) 1 = pure (BitVec.ofNat 64 (k.toNat / 96 + 1)) := by
      rw [hk', show BLOCKLENBYTES = BitVec.ofNat 64 96 from rfl, idiv_ofNat (by omega) (by omega),
        show (1 : BitVec 64) = BitVec.ofNat 64 1 from rfl, iadd_ofNat p (by omega), ← hk']
    rw [hi, pure_bind, show (0 : BitVec 64) = BitVec.ofNat 64 0 from rfl, irangeLen_ofNat (by omega) (by omega)]
    refine Panics.bind ?_
    refine forLoop_panics (fun _ x => x.1 = [] ∧ x.2.2 = s) 0 _ 0 (by omega) _ ⟨rfl, rfl⟩ (fun j _ hj => absurd hj (by omega))
      fun x hx => ?_
    obtain ⟨tmp, out, st⟩ := x
    obtain ⟨rfl, rfl⟩ := hx
    simp only [List.nil_append]
    rw [Bytes.slice_panics (by rw [rateBytes_length]; omega)]
    exact ⟨_, rfl⟩
  · rw [if_neg hbig]
    exact ⟨_, rfl⟩

/-- The bytes that are squeezed are those of the specification. -/
theorem spec_squeeze {k : Nat} (hk : k ≤ 96) (s : State) :
    Spec.Lyra2.squeeze k s = ((s.toList.take 12).flatMap toLeBytes64).take k := by
  have hr : (rate s).toList = s.toList.take 12 := by
    apply List.ext_getElem
    · simp
    · intro i h1 h2
      simp [rate]
  have h0 : (rate (Blake2b.rounds (12 * 0) s)).toList.flatMap (fun w => leBytes 8 w.toNat) =
      (s.toList.take 12).flatMap toLeBytes64 := by
    rw [show Blake2b.rounds (12 * 0) s = s from rfl, hr]
    congr 1
    funext w
    rw [Bytes.toLeBytes64_eq]
  unfold Spec.Lyra2.squeeze
  rw [List.range_succ_eq_map, List.flatMap_cons, h0, List.take_append_of_le_length (by rw [rateBytes_length]; omega)]

end Proofs.Lyra2

import Verif.Proofs.Lyra2Input
import Verif.Proofs.Lyra2modEq

/-! `lyra2` and `lyra2mod` compute what the specification says, on their domain. -/

namespace Proofs.Lyra2
open Rust Rust.Res Model.Utils Model.Lyra2 Spec Spec.Lyra2 Proofs.Sponge

/-- Everything before the wandering phase: the same code in `lyra2` and `lyra2mod`. -/
def front (p : Profile) (k : U64) (pwd salt : List U8) (time_cost n_rows n_cols : U64) :
    Res (I64 × State × Matrix × SetupVars) := do
  let (row_len_int64, m) ← allocMatrix p n_rows n_cols
  let n_blocks_input ← nBlocksInput p pwd.length salt.length
  let m ← writeInput p k pwd salt time_cost n_rows n_cols n_blocks_input m
  let state ← Model.Lyra2.absorbInput n_blocks_input m init_state
  let (state, m) ← squeezeRow0 p n_cols state m
  let (state, m) ← duplexRow1 p n_cols row_len_int64 state m
  let (state, m, v) ← Model.Lyra2.setupRows p n_rows n_cols row_len_int64 state m
  pure (row_len_int64, state, m, v)

theorem lyra2_front (p : Profile) (k : U64) (pwd salt : List U8) (T R C : U64) :
    lyra2 p k pwd salt T R C = (do
      if T.toNat < 1 then throw .explicit
      if R.toNat < 3 then throw .explicit
      let x ← front p k pwd salt T R C
      let w ← Model.Lyra2.wander p T R C x.1
        { state := x.2.1, m := x.2.2.1, prev := x.2.2.2.prev, row := 0, rowa := x.2.2.2.rowa }
      wrapUp p k x.1 w) := by
  unfold lyra2 front
  simp only [bind_assoc, pure_bind]

theorem lyra2mod_front (p : Profile) (k : U64) (pwd salt : List U8) (T R C : U64) :
    Model.Lyra2mod.lyra2mod p k pwd salt T R C = (do
      if T.toNat < 1 then throw .explicit
      if R.toNat < 3 then throw .explicit
      let x ← front p k pwd salt T R C
      let w ← Model.Lyra2mod.wander p T R C x.1
        { state := x.2.1, m := x.2.2.1, prev := x.2.2.2.prev, row := 0, rowa := x.2.2.2.rowa, index := 0 }
      Model.Lyra2mod.wrapUp p k x.1 w) := by
  unfold Model.Lyra2mod.lyra2mod front
  simp only [bind_assoc, pure_bind, mod_alloc, mod_nBlocks, mod_writeInput, mod_absorbInput, mod_squeezeRow0, mod_duplexRow1,
    mod_setupRows, mod_init]

/-! ## The part before the wandering phase -/

theorem Rep.of_size {R C : Nat} {m : Matrix} (h : m.size = 12 * (R * C)) : ∃ M, Rep R C m M := by
  refine ⟨fun r c => Vector.ofFn fun w => m.getD (base C r c + w) 0, h, fun r hr c hc w => ?_⟩
  have := base_lt hr hc
  have hlt : base C r c + w < m.size := by rw [h]; omega
  rw [Array.getElem?_eq_getElem hlt]
  simp [Array.getD, hlt]

theorem Rep.agree {R C : Nat} {m : Matrix} {M M' : Mem} (h : Rep R C m M) (ha : Agree R C M M') : Rep R C m M' :=
  ⟨h.1, fun r hr c hc w => by rw [h.2 r hr c hc w, ha r hr c hc]⟩

/-- The state and memory of the specification after setup. -/
def specFront (ws : List Blake2b.W) (R C : Nat) : Sponge × Mem :=
  setup R C (Spec.Lyra2.absorbInput ws (ws.length / 8) start) (fun _ _ => Vector.replicate 12 0)

/-- The memory and state of the specification after the wandering phase. -/
def specWander (order : Order) (pick : Pick) (T R C : Nat) (sM : Sponge × Mem) : Wander :=
  Spec.Lyra2.wander order pick T C ⟨sM.1, sM.2, R - 1, 0, 0⟩

theorem run_eq (order : Order) (pick : Pick) (ws : List Blake2b.W) (k T R C : Nat) :
    run order pick ws k T R C = Spec.Lyra2.squeeze k (f (xorRate (specWander order pick T R C (specFront ws R C)).s
      ((specWander order pick T R C (specFront ws R C)).M (specWander order pick T R C (specFront ws R C)).rowStar 0))) := rfl

theorem allocMatrix_ok (p : Profile) {R C : Nat} (hR : 0 < R) (hM : 12 * (R * C) < 2 ^ 60) (hC : 0 < C) :
    allocMatrix p (BitVec.ofNat 64 R) (BitVec.ofNat 64 C) =
      pure (BitVec.ofNat 64 (12 * C), Array.replicate (12 * (R * C)) 0) := by
  obtain ⟨-, -, h12, hC', hR', -, -⟩ := bounds hM hR hC
  have e : R * (12 * C) = 12 * (R * C) := by ring
  unfold allocMatrix
  rw [show BLOCKLENINT64 = BitVec.ofNat 64 12 from rfl, imul_ofNat p (by omega) (by omega) (by omega), pure_bind,
    imul_ofNat p (by omega) (by omega) (by omega), pure_bind, e, toNat_ofNat64 (by omega)]
  unfold vecOf
  rw [if_pos (by unfold isizeMax; omega), pure_bind]

theorem Domain.cols {k a b T R C : Nat} (h : Domain k a b T R C) : 0 < C := by
  have := h.input
  unfold nBlocks at this
  by_contra hc
  have : C = 0 := by omega
  subst this
  omega

theorem front_ok (p : Profile) (k T : U64) {R C : Nat} (pwd salt : List U8) (hR : 3 ≤ R) (hM : 12 * (R * C) < 2 ^ 60)
    (hI : 8 * nBlocks (pwd.length + salt.length) ≤ 12 * (R * C)) :
    (front p k pwd salt T (BitVec.ofNat 64 R) (BitVec.ofNat 64 C)).Sat (fun x =>
      x.1 = BitVec.ofNat 64 (12 * C) ∧ Rep2 R C (x.2.1, x.2.2.1) (specFront (crateWords k.toNat pwd salt T.toNat R C) R C) ∧
        x.2.2.2 = setupVars R) := by
  have hC : 0 < C := by
    by_contra hc
    have : C = 0 := by omega
    subst this
    unfold nBlocks at hI
    omega
  obtain ⟨-, -, h12, hC', hR', -, -⟩ := bounds hM (show 0 < R by omega) hC
  unfold front
  have hI' : pwd.length + salt.length + 48 < 2 ^ 63 := by unfold nBlocks at hI; omega
  rw [allocMatrix_ok p (by omega) hM hC, pure_bind]
  dsimp only
  rw [nBlocksInput_ok p hI', pure_bind]
  refine Sat.bind (writeInput_ok p k T _ _ pwd salt hM hI) fun m hm => ?_
  rw [toNat_ofNat64 (by omega), toNat_ofNat64 (by omega)] at hm
  rw [absorbInput_ok hm hI (by unfold nBlocks; omega), pure_bind, init_eq]
  obtain ⟨M0, hM0⟩ := Rep.of_size hm.1
  have hlen := crateWords_length k.toNat pwd salt T.toNat R C
  have hs : Spec.Lyra2.absorbInput (crateWords k.toNat pwd salt T.toNat R C) (nBlocks (pwd.length + salt.length)) start =
      Spec.Lyra2.absorbInput (crateWords k.toNat pwd salt T.toNat R C) ((crateWords k.toNat pwd salt T.toNat R C).length / 8)
        start := by
    rw [hlen, Nat.mul_div_cancel_left _ (by omega)]
  rw [hs]
  unfold specFront
  obtain ⟨ha1, ha2⟩ := setup_agree (R := R) (C := C) (by omega) (fun row h => setupStar_lt h)
    (Spec.Lyra2.absorbInput (crateWords k.toNat pwd salt T.toNat R C) ((crateWords k.toNat pwd salt T.toNat R C).length / 8)
        start) M0 (fun _ _ => Vector.replicate 12 0)
  generalize Spec.Lyra2.absorbInput _ _ _ = s at *
  refine Sat.bind (squeezeRow0_ok p hM hM0 (by omega) hC) fun x hx => ?_
  obtain ⟨s1, m1⟩ := x
  obtain ⟨h1, h2⟩ := hx
  dsimp only at h1 h2 ⊢
  refine Sat.bind (duplexRow1_ok p hM h2 (by omega) hC) fun x hx => ?_
  obtain ⟨s2, m2⟩ := x
  obtain ⟨h3, h4⟩ := hx
  dsimp only at h3 h4 ⊢
  refine Sat.bind (setupRows_ok p hM (by omega) hC h4) fun x hx => ?_
  obtain ⟨s3, m3, v⟩ := x
  obtain ⟨⟨h5, h6⟩, h7⟩ := hx
  dsimp only at h5 h6 h7 ⊢
  subst h1 h3
  refine .pure ⟨rfl, ⟨?_, Rep.agree ?_ ha2⟩, h7⟩
  · rw [← ha1]; exact h5
  · exact h6

/-! ## The whole of `lyra2` -/

theorem wrapUp_ok (p : Profile) {k R C : Nat} (hk : k ≤ 96) (hM : 12 * (R * C) < 2 ^ 60) (hC : 0 < C) {v : WanderVars}
    {V : Wander} (h : RepW R C v 0 V) :
    wrapUp p (BitVec.ofNat 64 k) (BitVec.ofNat 64 (12 * C)) v =
      pure (Spec.Lyra2.squeeze k (f (xorRate V.s (V.M V.rowStar 0)))) := by
  have := absorb_block_ok h.m h.rowa_lt hC v.state p hM
  unfold wrapUp
  rw [h.rowa]
  rw [show ∀ (x : Res I64) (g : State → Res (List U8)), (x >>= fun at_ => splitRight v.m at_.toNat >>= fun r =>
    absorb_block v.state r >>= g) = ((x >>= fun at_ => splitRight v.m at_.toNat >>= fun r => absorb_block v.state r) >>= g) by
    intro x g; simp only [bind_assoc]]
  rw [this, pure_bind, squeeze_ok p _ hk, spec_squeeze hk, h.s]

theorem lyra2_ok (p : Profile) (k T R C : U64) (pwd salt : List U8)
    (h : Domain k.toNat pwd.length salt.length T.toNat R.toNat C.toNat) :
    lyra2 p k pwd salt T R C = pure (masked k.toNat pwd salt T.toNat R.toNat C.toNat) := by
  have hC := Domain.cols h
  obtain ⟨hT, hR, hk, hmem, hin⟩ := h
  have hM : 12 * (R.toNat * C.toNat) < 2 ^ 60 := by omega
  obtain ⟨-, -, h12, hC', hR', -, -⟩ := bounds hM (show 0 < R.toNat by omega) hC
  rw [lyra2_front, if_neg (by omega), if_neg (by omega)]
  refine Sat.returns ?_
  have hfront := front_ok p k T pwd salt hR hM hin
  rw [BitVec.ofNat_toNat, BitVec.ofNat_toNat, BitVec.setWidth_eq, BitVec.setWidth_eq] at hfront
  refine Sat.bind hfront fun x hx => ?_
  obtain ⟨l, s, m, v⟩ := x
  obtain ⟨h1, ⟨h2, h3⟩, h4⟩ := hx
  dsimp only at h1 h2 h3 h4 ⊢
  subst h1 h4
  unfold masked
  rw [run_eq]
  generalize specFront _ _ _ = y at *
  obtain ⟨s', M⟩ := y
  dsimp only at h2 h3 ⊢
  subst h2
  have hw := wander_ok p hM hR hC T (v := ⟨s, m, (setupVars R.toNat).prev, 0, (setupVars R.toNat).rowa⟩)
    (V := ⟨s, M, R.toNat - 1, setupStar R.toNat, 0⟩)
    ⟨rfl, h3, rfl, by show R.toNat - 1 < R.toNat; omega, rfl, rfl, by
      have := setupStar_lt (show 2 ≤ R.toNat by omega); show setupStar R.toNat < R.toNat; omega⟩
  rw [BitVec.ofNat_toNat, BitVec.ofNat_toNat, BitVec.setWidth_eq, BitVec.setWidth_eq] at hw
  rw [wander_forget (Order.mask R.toNat) (Pick.mask R.toNat) T.toNat C.toNat ⟨s, M, R.toNat - 1, 0, 0⟩ (setupStar R.toNat) hT
    (mask_ne_nil (by omega) 1)] at hw
  refine Sat.bind hw fun w hw => ?_
  have := wrapUp_ok p hk hM hC hw
  rw [BitVec.ofNat_toNat, BitVec.setWidth_eq] at this
  rw [this]
  exact .pure rfl

/-! ## `lyra2mod` -/

/-- As `RepW`, for the variables of `lyra2mod`. -/
structure RepWM (R C : Nat) (v : Model.Lyra2mod.WanderVars) (x : Nat) (V : Wander) : Prop where
  s : v.state = V.s
  m : Rep R C v.m V.M
  prev : v.prev = BitVec.ofNat 64 V.prev
  prev_lt : V.prev < R
  row : v.row = BitVec.ofNat 64 x
  rowa : v.rowa = BitVec.ofNat 64 V.rowStar
  rowa_lt : V.rowStar < R
  index : v.index = V.word

theorem aget_mask (s : State) (i : Nat) : aget s (i &&& 0xf) = pure (s[i % 16]'(Nat.mod_lt _ (by decide))) := by
  have : i &&& 0xf = i % 16 := Nat.and_two_pow_sub_one_eq_mod i 4
  unfold aget
  rw [dif_pos (by rw [this]; omega)]
  congr 2

theorem mod_wanderBody_ok {R C : Nat} (p : Profile) (hM : 12 * (R * C) < 2 ^ 60) (hR : 3 ≤ R) (hC : 0 < C) (τ : Nat)
    (v : Model.Lyra2mod.WanderVars) (x : Nat) (V : Wander) (hx : x < R) (h : RepWM R C v x V) :
    (Model.Lyra2mod.wanderBody p (BitVec.ofNat 64 R) (BitVec.ofNat 64 C) (BitVec.ofNat 64 (12 * C)) (stepOf R τ) v).Sat
      (PassPost (RepWM R C) (maskNext R τ x) (wanderRow (Pick.rev3 R) C V x)) := by
  obtain ⟨-, -, -, -, hR', -, -⟩ := bounds hM hx hC
  obtain ⟨hs, hm, hp, hp', hrow, -, -, hi⟩ := h
  unfold Model.Lyra2mod.wanderBody
  rw [aget_mask, pure_bind, aget_mask, pure_bind, usub_one p (by omega) hR', pure_bind, (and_mask _ (by omega) hR').1, hp, hrow]
  simp only [mod_duplexRow]
  have ha := (and_mask (v.state[(v.state[v.index.toNat % 16]'(Nat.mod_lt _ (by decide))).toNat % 16]'(Nat.mod_lt _ (by decide)))
    (show 1 ≤ R by omega) hR').2
  refine Sat.bind (duplexRow_ok p hM hm hp' ha hx hC) fun y hy => ?_
  obtain ⟨s', m'⟩ := y
  dsimp only
  rw [iadd_step p hR hR' τ hx, pure_bind, isub_one p (by omega) hR', pure_bind,
    ← maskNext_bv (by omega) (by omega) τ x hx]
  have hz : BitVec.ofNat 64 (maskNext R τ x) = 0 ↔ maskNext R τ x = 0 :=
    ofNat_eq_zero (by have := maskNext_lt (show 0 < R by omega) τ x; omega)
  have hrep : ∀ z, RepWM R C ⟨s', m', BitVec.ofNat 64 x, BitVec.ofNat 64 z, BitVec.ofNat 64 ((v.state[(v.state[v.index.toNat % 16]'(Nat.mod_lt _ (by decide))).toNat % 16]'(Nat.mod_lt _ (by decide))).toNat &&& (R - 1)),
      (v.state[v.index.toNat % 16]'(Nat.mod_lt _ (by decide)))⟩ z (wanderRow (Pick.rev3 R) C V x) := by
    intro z
    obtain ⟨vs, vm, vp, vr, va, vi⟩ := v
    dsimp only at *
    subst hs hi
    exact ⟨hy.1, hy.2, rfl, hx, rfl, rfl, ha, rfl⟩
  by_cases h0 : maskNext R τ x = 0
  · rw [if_pos (hz.2 h0), h0]; exact .pure ⟨rfl, hrep 0⟩
  · rw [if_neg (mt hz.1 h0)]; exact .pure ⟨h0, hrep _⟩

theorem mod_wander_ok {R C : Nat} (p : Profile) (hM : 12 * (R * C) < 2 ^ 60) (hR : 3 ≤ R) (hC : 0 < C) (T : U64)
    {v : Model.Lyra2mod.WanderVars} {V : Wander} (h : RepWM R C v 0 V) :
    (Model.Lyra2mod.wander p T (BitVec.ofNat 64 R) (BitVec.ofNat 64 C) (BitVec.ofNat 64 (12 * C)) v).Sat
      (fun v' => RepWM R C v' 0 (Spec.Lyra2.wander (Order.mask R) (Pick.rev3 R) T.toNat C V)) := by
  obtain ⟨-, -, -, -, hR', -, -⟩ := bounds hM (show 0 < R by omega) hC
  unfold Model.Lyra2mod.wander
  refine passes_sim (RepWM R C) (fun τ v V hv => ?_) v V h
  rw [mod_wanderStep, wanderStep_ok p hR hR', pure_bind]
  obtain ⟨n, hn1, hn2, hn3⟩ := maskNext_returns (show 0 < R by omega) (by omega) τ
  exact pass_sim (RepWM R C) (by omega) (fun v x V hx hv => mod_wanderBody_ok p hM hR hC τ v x V hx hv) R n hn1 hn2 0
    (by omega) hn3 v V hv

theorem mod_wrapUp_ok (p : Profile) {k R C : Nat} (hk : k ≤ 96) (hM : 12 * (R * C) < 2 ^ 60) (hC : 0 < C)
    {v : Model.Lyra2mod.WanderVars} {V : Wander} (h : RepWM R C v 0 V) :
    Model.Lyra2mod.wrapUp p (BitVec.ofNat 64 k) (BitVec.ofNat 64 (12 * C)) v =
      pure (Spec.Lyra2.squeeze k (f (xorRate V.s (V.M V.rowStar 0)))) := by
  rw [mod_wrapUp]
  exact wrapUp_ok p hk hM hC (v := ⟨v.state, v.m, v.prev, v.row, v.rowa⟩) (V := V)
    ⟨h.s, h.m, h.prev, h.prev_lt, h.row, h.rowa, h.rowa_lt⟩

theorem lyra2mod_ok (p : Profile) (k T R C : U64) (pwd salt : List U8)
    (h : Domain k.toNat pwd.length salt.length T.toNat R.toNat C.toNat) :
    Model.Lyra2mod.lyra2mod p k pwd salt T R C = pure (rev3Masked k.toNat pwd salt T.toNat R.toNat C.toNat) := by
  have hC := Domain.cols h
  obtain ⟨hT, hR, hk, hmem, hin⟩ := h
  have hM : 12 * (R.toNat * C.toNat) < 2 ^ 60 := by omega
  obtain ⟨-, -, h12, hC', hR', -, -⟩ := bounds hM (show 0 < R.toNat by omega) hC
  rw [lyra2mod_front, if_neg (by omega), if_neg (by omega)]
  refine Sat.returns ?_
  have hfront := front_ok p k T pwd salt hR hM hin
  rw [BitVec.ofNat_toNat, BitVec.ofNat_toNat, BitVec.setWidth_eq, BitVec.setWidth_eq] at hfront
  refine Sat.bind hfront fun x hx => ?_
  obtain ⟨l, s, m, v⟩ := x
  obtain ⟨h1, ⟨h2, h3⟩, h4⟩ := hx
  dsimp only at h1 h2 h3 h4 ⊢
  subst h1 h4
  unfold rev3Masked
  rw [run_eq]
  generalize specFront _ _ _ = y at *
  obtain ⟨s', M⟩ := y
  dsimp only at h2 h3 ⊢
  subst h2
  have hw := mod_wander_ok p hM hR hC T (v := ⟨s, m, (setupVars R.toNat).prev, 0, (setupVars R.toNat).rowa, 0⟩)
    (V := ⟨s, M, R.toNat - 1, setupStar R.toNat, 0⟩)
    ⟨rfl, h3, rfl, by show R.toNat - 1 < R.toNat; omega, rfl, rfl, by
      have := setupStar_lt (show 2 ≤ R.toNat by omega); show setupStar R.toNat < R.toNat; omega, rfl⟩
  rw [BitVec.ofNat_toNat, BitVec.ofNat_toNat, BitVec.setWidth_eq, BitVec.setWidth_eq] at hw
  rw [wander_forget (Order.mask R.toNat) (Pick.rev3 R.toNat) T.toNat C.toNat ⟨s, M, R.toNat - 1, 0, 0⟩ (setupStar R.toNat) hT
    (mask_ne_nil (by omega) 1)] at hw
  refine Sat.bind hw fun w hw => ?_
  have := mod_wrapUp_ok p hk hM hC hw
  rw [BitVec.ofNat_toNat, BitVec.setWidth_eq] at this
  rw [this]
  exact .pure rfl

end Proofs.Lyra2

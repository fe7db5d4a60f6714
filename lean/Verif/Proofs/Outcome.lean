import Verif.Proofs.Lyra2Total

/-! Which panic ends a call of `lyra2` or `lyra2mod`. -/

namespace Proofs.Lyra2
open Rust Rust.Res Model.Utils Model.Lyra2 Spec Spec.Lyra2 Proofs.Sponge

variable {α β : Type}

/-- `m` panics with `e`, or returns a value with `Q`. -/
def PostE (e : Panic) (m : Res α) (Q : α → Prop) : Prop := m = throw e ∨ m.Sat Q

theorem PostE.bind {e : Panic} {m : Res α} {f : α → Res β} {Q : α → Prop} {Q' : β → Prop} (h : PostE e m Q)
    (hf : ∀ a, Q a → PostE e (f a) Q') : PostE e (m >>= f) Q' := by
  rcases h with h | ⟨a, h, ha⟩
  · left; rw [h]; rfl
  · rw [h, pure_bind]; exact hf a ha

theorem PostE.mono {e : Panic} {m : Res α} {Q Q' : α → Prop} (h : PostE e m Q) (hq : ∀ a, Q a → Q' a) : PostE e m Q' :=
  h.imp_right fun h => h.mono hq

theorem PostE.sat {e : Panic} {m : Res α} {Q : α → Prop} (h : m.Sat Q) : PostE e m Q := .inr h

theorem PostE.throws {e : Panic} {m : Res α} {Q : α → Prop} (h : PostE e m Q) (hq : ∀ a, ¬ Q a) : m = throw e := by
  rcases h with h | ⟨a, -, ha⟩
  · exact h
  · exact absurd ha (hq a)

theorem PostE.forLoop {σ : Type} {e : Panic} {body : Nat → σ → Res σ} (P : Nat → σ → Prop) (i n : Nat) (s : σ) (h0 : P 0 s)
    (step : ∀ j s, j < n → P j s → PostE e (body (i + j) s) (P (j + 1))) : PostE e (forLoop i n body s) (P n) := by
  induction n generalizing i s P with
  | zero => exact .sat (.pure h0)
  | succ n ih =>
    unfold Rust.forLoop
    refine PostE.bind (step 0 s (by omega) h0) fun s' hs' => ?_
    refine ih (fun j => P (j + 1)) (i + 1) s' hs' fun j s hj h => ?_
    have := step (j + 1) s (by omega) h
    rwa [show i + (j + 1) = i + 1 + j by omega] at this

theorem vset_postE {α : Type} (v : Array α) (i : Nat) (x : α) :
    PostE .bounds (vset v i x) (fun v' => i < v.size ∧ v'.size = v.size) := by
  unfold vset
  split
  · exact .sat (.pure ⟨by assumption, by simp⟩)
  · exact .inl rfl

theorem vget_postE {α : Type} (v : Array α) (i : Nat) : PostE .bounds (vget v i) (fun _ => i < v.size) := by
  unfold vget
  split
  · rename_i h
    refine .sat (.pure ?_)
    by_contra hc
    rw [Array.getElem?_eq_none (by omega)] at h
    cases h
  · exact .inl rfl

theorem writeWords_postE (bytes : List U8) (ptr : Nat) (m : Matrix) :
    PostE .bounds (writeWords bytes ptr m) (fun m' => m'.size = m.size) := by
  unfold writeWords
  refine PostE.forLoop (fun _ (m' : Matrix) => m'.size = m.size) _ _ _ rfl fun j m' hj hm => ?_
  have h8 : 8 * (0 + j) + 8 ≤ bytes.length := by omega
  dsimp only
  rw [slice, if_pos ⟨by omega, h8⟩, pure_bind, Bytes.read64_ok (by rw [List.length_take, List.length_drop]; omega), pure_bind]
  exact (vset_postE _ _ _).mono fun _ h => by rw [h.2, hm]

/-- Input that does not fit is an index out of bounds. -/
theorem writeInput_throws (p : Profile) (k T R C : U64) (pwd salt : List U8) (m : Matrix)
    (hl : pwd.length + salt.length ≤ 2 ^ 62) (hn : m.size < 8 * nBlocks (pwd.length + salt.length)) :
    writeInput p k pwd salt T R C (BitVec.ofNat 64 (nBlocks (pwd.length + salt.length))) m = throw .bounds := by
  have hb : nBlocks (pwd.length + salt.length) ≤ 2 ^ 56 + 1 := by unfold nBlocks; omega
  have hb' : 1 ≤ nBlocks (pwd.length + salt.length) := by unfold nBlocks; omega
  refine PostE.throws (Q := fun _ => False) ?_ fun _ h => h
  unfold writeInput
  refine PostE.bind (writeWords_postE _ _ _) fun m1 h1 => ?_
  refine PostE.bind (writeWords_postE _ _ _) fun m2 h2 => ?_
  refine PostE.bind (vset_postE _ _ _) fun m3 h3 => ?_
  refine PostE.bind (vset_postE _ _ _) fun m4 h4 => ?_
  refine PostE.bind (vset_postE _ _ _) fun m5 h5 => ?_
  refine PostE.bind (vset_postE _ _ _) fun m6 h6 => ?_
  refine PostE.bind (vset_postE _ _ _) fun m7 h7 => ?_
  refine PostE.bind (vset_postE _ _ _) fun m8 h8 => ?_
  refine PostE.bind (vset_postE _ _ _) fun m9 h9 => ?_
  rw [show BLOCKLENBLAKE2SAFEBYTES = BitVec.ofNat 64 64 from rfl, imul_ofNat p (by omega) (by omega) (by omega), pure_bind,
    show (8 : BitVec 64) = BitVec.ofNat 64 8 from rfl, idiv_ofNat (by omega) (by omega),
    show (1 : BitVec 64) = BitVec.ofNat 64 1 from rfl, isub_ofNat p (by omega) (by omega), pure_bind]
  refine PostE.bind (vget_postE _ _) fun x hx => ?_
  rw [toNat_ofNat64 (by omega)] at hx
  exfalso
  omega

/-- A column count that is negative as `i64` is an index out of bounds when row 0 is squeezed. -/
theorem squeezeRow0_throws (p : Profile) (C : U64) (s : State) (m : Matrix) (hm : m.size < 2 ^ 60) (h : C.toInt < 0) (h' : -2 ^ 58 ≤ C.toInt) :
    squeezeRow0 p C s m = throw .bounds := by
  have hC := C.isLt
  have e : C.toInt = C.toNat - 2 ^ 64 := by rw [BitVec.toInt_eq_toNat_cond] at h ⊢; split at h <;> omega
  have e1 : isub p C 1 = pure (C - 1) := by
    unfold isub
    rw [if_neg]
    simp only [Bool.and_eq_true, not_and, Bool.not_eq_true]
    intro _
    have : (1 : BitVec 64).toInt = 1 := by decide
    rw [BitVec.ssubOverflow, this]
    simp
    omega
  have i1 : (C - 1).toInt = C.toInt - 1 := by
    rw [BitVec.toInt_sub, show (1 : BitVec 64).toInt = 1 by decide]
    exact Int.bmod_eq_of_le (by omega) (by omega)
  have e2 : imul p (C - 1) BLOCKLENINT64 = pure ((C - 1) * 12#64) := by
    unfold imul
    rw [if_neg]
    · rfl
    simp only [Bool.and_eq_true, not_and, Bool.not_eq_true]
    intro _
    have : BLOCKLENINT64.toInt = 12 := by decide
    rw [BitVec.smulOverflow, this, i1]
    simp
    omega
  have i2 : ((C - 1) * 12#64).toInt = (C.toInt - 1) * 12 := by
    rw [BitVec.toInt_mul, i1, show (12#64).toInt = 12 by decide]
    exact Int.bmod_eq_of_le (by omega) (by omega)
  have i3 : 2 ^ 63 ≤ ((C - 1) * 12#64).toNat := by
    have := BitVec.toInt_eq_toNat_cond ((C - 1) * 12#64)
    rw [i2] at this
    split at this <;> omega
  have e3 : iadd p ((C - 1) * 12#64) (BitVec.ofNat 64 (0 : Fin 12)) = pure ((C - 1) * 12#64) := by
    unfold iadd
    rw [if_neg]
    · simp
    simp only [Bool.and_eq_true, not_and, Bool.not_eq_true]
    intro _
    have : (BitVec.ofNat 64 (0 : Fin 12)).toInt = 0 := by decide
    rw [BitVec.saddOverflow, this, i2]
    simp
    omega
  unfold squeezeRow0
  rw [e1, pure_bind, e2, pure_bind, show C.toNat = (C.toNat - 1) + 1 by omega, Rust.forLoop]
  dsimp only
  rw [unroll12, show List.finRange 12 = 0 :: (List.finRange 12).tail from rfl, List.foldlM_cons, e3, pure_bind, vset, dif_neg (by omega)]
  rfl

theorem squeeze_throws (p : Profile) (s : State) {k : U64} (hk : 96 < k.toNat) :
    Model.Lyra2.squeeze p s k = throw (if isizeMax < k.toNat then .capacity else .bounds) := by
  unfold Model.Lyra2.squeeze vecOf
  by_cases hbig : 1 * k.toNat ≤ isizeMax
  · rw [if_pos hbig, pure_bind, if_neg (by omega)]
    unfold isizeMax at hbig
    have hk' : k = BitVec.ofNat 64 k.toNat := by simp
    have hi : iadd p (idiv k BLOCKLENBYTES) 1 = pure (BitVec.ofNat 64 (k.toNat / 96 + 1)) := by
      rw [hk', show BLOCKLENBYTES = BitVec.ofNat 64 96 from rfl, idiv_ofNat (by omega) (by omega),
        show (1 : BitVec 64) = BitVec.ofNat 64 1 from rfl, iadd_ofNat p (by omega), ← hk']
    rw [hi, pure_bind, show (0 : BitVec 64) = BitVec.ofNat 64 0 from rfl, irangeLen_ofNat (by omega) (by omega),
      show k.toNat / 96 + 1 - 0 = k.toNat / 96 + 1 from rfl, Rust.forLoop]
    dsimp only
    rw [List.nil_append, Bytes.slice_panics (by rw [rateBytes_length]; omega)]
    rfl
  · rw [if_neg hbig, if_pos (by omega)]
    rfl

/-! ## Allocation -/

theorem imul_throws {a b : I64} (h : ¬ (-2 ^ 63 ≤ a.toInt * b.toInt ∧ a.toInt * b.toInt < 2 ^ 63)) : imul .debug a b = throw .overflow := by
  unfold imul
  rw [if_pos]
  rw [BitVec.smulOverflow]
  simp [Profile.checked]
  omega

theorem imul_fits (p : Profile) {a b : I64} (h : -2 ^ 63 ≤ a.toInt * b.toInt ∧ a.toInt * b.toInt < 2 ^ 63) :
    imul p a b = pure (a * b) ∧ (a * b).toInt = a.toInt * b.toInt := by
  constructor
  · unfold imul
    rw [if_neg]
    simp only [Bool.and_eq_true, not_and, Bool.not_eq_true]
    intro _
    rw [BitVec.smulOverflow]
    simp
    omega
  · rw [BitVec.toInt_mul]
    exact Int.bmod_eq_of_le (by omega) (by omega)

/-- A product of `i64` that overflows. -/
def Overflows (R C : U64) : Prop :=
  ¬ (-2 ^ 63 ≤ 12 * C.toInt ∧ 12 * C.toInt < 2 ^ 63) ∨
    ¬ (-2 ^ 63 ≤ R.toInt * (12 * C.toInt) ∧ R.toInt * (12 * C.toInt) < 2 ^ 63)

theorem allocMatrix_overflow {R C : U64} (h : Overflows R C) : allocMatrix .debug R C = throw .overflow := by
  unfold allocMatrix
  have h12 : BLOCKLENINT64.toInt = 12 := by decide
  by_cases h1 : -2 ^ 63 ≤ 12 * C.toInt ∧ 12 * C.toInt < 2 ^ 63
  · obtain ⟨e1, e2⟩ := imul_fits .debug (a := BLOCKLENINT64) (b := C) (by rw [h12]; exact h1)
    rw [h12] at e2
    rw [e1, pure_bind, imul_throws (by rw [e2]; exact h.resolve_left (not_not_intro h1))]
    rfl
  · rw [imul_throws (by rw [h12]; exact h1)]
    rfl

theorem allocMatrix_fits (p : Profile) {R C : U64} (h : ¬ Overflows R C) : allocMatrix p R C =
    if 0 ≤ R.toInt * (12 * C.toInt) ∧ 8 * (R.toInt * (12 * C.toInt)) ≤ isizeMax then
      pure (12#64 * C, Array.replicate (R.toInt * (12 * C.toInt)).toNat 0) else throw .capacity := by
  unfold Overflows at h
  rw [not_or, not_not, not_not] at h
  obtain ⟨h1, h2⟩ := h
  have h12 : BLOCKLENINT64.toInt = 12 := by decide
  unfold allocMatrix
  obtain ⟨e1, e2⟩ := imul_fits p (a := BLOCKLENINT64) (b := C) (by rw [h12]; exact h1)
  rw [h12] at e2
  obtain ⟨e3, e4⟩ := imul_fits p (a := R) (b := BLOCKLENINT64 * C) (by rw [e2]; exact h2)
  rw [e2] at e4
  rw [e1, pure_bind, e3, pure_bind, vecOf]
  have := BitVec.toInt_eq_toNat_cond (R * (BLOCKLENINT64 * C))
  have hlt := (R * (BLOCKLENINT64 * C)).isLt
  rw [e4] at this
  unfold isizeMax
  by_cases hc : 0 ≤ R.toInt * (12 * C.toInt)
  · have e5 : (R.toInt * (12 * C.toInt)).toNat = (R * (BLOCKLENINT64 * C)).toNat := by split at this <;> omega
    rw [e5]
    by_cases hd : 8 * (R.toInt * (12 * C.toInt)) ≤ ((2 ^ 63 - 1 : Nat) : Int)
    · rw [if_pos (by omega), if_pos ⟨hc, hd⟩]
      rfl
    · rw [if_neg (by omega), if_neg fun h => hd h.2]
      rfl
  · rw [if_neg (by split at this <;> omega), if_neg fun h => hc h.1]
    rfl

/-! ## The whole call -/

/-- Everything before the wandering phase, when the matrix can be allocated but the input does not fit or the number of columns is
negative. -/
theorem front_throws (p : Profile) (k T R C : U64) (pwd salt : List U8) (hl : pwd.length + salt.length ≤ 2 ^ 62) 
    (h : ¬ Overflows R C) (h0 : 0 ≤ R.toInt * (12 * C.toInt)) (h1 : 8 * (R.toInt * (12 * C.toInt)) ≤ isizeMax)
    (h2 : C.toInt < 0 ∨ R.toInt * (12 * C.toInt) < 8 * nBlocks (pwd.length + salt.length)) :
    front p k pwd salt T R C = throw .bounds := by
  unfold front
  rw [allocMatrix_fits p h, if_pos ⟨h0, h1⟩, pure_bind]
  dsimp only
  rw [nBlocksInput_ok p (by omega), pure_bind]
  unfold isizeMax at h1
  generalize hw : R.toInt * (12 * C.toInt) = w at *
  by_cases hfit : 8 * nBlocks (pwd.length + salt.length) ≤ w.toNat
  · obtain ⟨m, hm, hm'⟩ := writeInput_ok p k T R C pwd salt (L := w.toNat) (by omega) hfit
    rw [hm, pure_bind, absorbInput_ok hm' hfit (by unfold nBlocks; omega), pure_bind]
    have hC : C.toInt < 0 := by omega
    rw [squeezeRow0_throws p C _ m (by rw [hm'.1]; omega) hC (by
      have : R.toInt ≤ -1 := by
        by_contra hc
        have hr : 0 ≤ R.toInt := by omega
        have hz : R.toInt * (12 * C.toInt) ≤ 0 := mul_nonpos_of_nonneg_of_nonpos hr (by omega)
        unfold nBlocks at hfit
        omega
      have hp : 0 ≤ (-1 - R.toInt) * (-C.toInt) := mul_nonneg (by omega) (by omega)
      rw [show (-1 - R.toInt) * (-C.toInt) = R.toInt * C.toInt + C.toInt by ring] at hp
      rw [show R.toInt * (12 * C.toInt) = 12 * (R.toInt * C.toInt) by ring] at hw
      omega)]
    rfl
  · rw [writeInput_throws p k T R C pwd salt _ hl (by rw [Array.size_replicate]; omega)]
    rfl

theorem lyra2_throws {p : Profile} {k T R C : U64} {pwd salt : List U8} {e : Panic} (hT : 1 ≤ T.toNat) (hR : 3 ≤ R.toNat)
    (h : front p k pwd salt T R C = throw e) :
    lyra2 p k pwd salt T R C = throw e ∧ Model.Lyra2mod.lyra2mod p k pwd salt T R C = throw e := by
  constructor
  · rw [lyra2_front, if_neg (by omega), if_neg (by omega), h]; rfl
  · rw [lyra2mod_front, if_neg (by omega), if_neg (by omega), h]; rfl

theorem wrapUp_throws (p : Profile) {k : U64} {R C : Nat} (hk : 96 < k.toNat) (hM : 12 * (R * C) < 2 ^ 60) (hC : 0 < C)
    {v : WanderVars} {V : Wander} (h : RepW R C v 0 V) :
    wrapUp p k (BitVec.ofNat 64 (12 * C)) v = throw (if isizeMax < k.toNat then .capacity else .bounds) := by
  have := absorb_block_ok h.m h.rowa_lt hC v.state p hM
  unfold wrapUp
  rw [h.rowa]
  rw [show ∀ (x : Res I64) (g : State → Res (List U8)), (x >>= fun at_ => splitRight v.m at_.toNat >>= fun r =>
    absorb_block v.state r >>= g) = ((x >>= fun at_ => splitRight v.m at_.toNat >>= fun r => absorb_block v.state r) >>= g) by
    intro x g; simp only [bind_assoc]]
  rw [this, pure_bind, squeeze_throws p _ hk]

theorem long_key (p : Profile) (k T R C : U64) (pwd salt : List U8) (hT : 1 ≤ T.toNat) (hR : 3 ≤ R.toNat) (hk : 96 < k.toNat)
    (hmem : 96 * (R.toNat * C.toNat) ≤ isizeMax) (hin : 8 * nBlocks (pwd.length + salt.length) ≤ 12 * (R.toNat * C.toNat)) :
    lyra2 p k pwd salt T R C = throw (if isizeMax < k.toNat then .capacity else .bounds) ∧
      Model.Lyra2mod.lyra2mod p k pwd salt T R C = throw (if isizeMax < k.toNat then .capacity else .bounds) := by
  have hM : 12 * (R.toNat * C.toNat) < 2 ^ 60 := by unfold isizeMax at hmem; omega
  have hC : 0 < C.toNat := by
    by_contra hc
    have : C.toNat = 0 := by omega
    rw [this] at hin
    unfold nBlocks at hin
    omega
  have hfront := front_ok p k T pwd salt hR hM hin
  rw [BitVec.ofNat_toNat, BitVec.ofNat_toNat, BitVec.setWidth_eq, BitVec.setWidth_eq] at hfront
  obtain ⟨⟨l, s, m, v⟩, hx, h1, ⟨h2, h3⟩, h4⟩ := hfront
  dsimp only at h1 h2 h3 h4
  subst h1 h4
  have hst := setupStar_lt (show 2 ≤ R.toNat by omega)
  rw [lyra2_front, lyra2mod_front, hx]
  simp only [pure_bind]
  constructor
  · rw [if_neg (by omega), if_neg (by omega)]
    have hw := wander_ok p hM hR hC T (v := ⟨s, m, (setupVars R.toNat).prev, 0, (setupVars R.toNat).rowa⟩)
      (V := ⟨s, _, R.toNat - 1, setupStar R.toNat, 0⟩)
      ⟨rfl, h3, rfl, by show R.toNat - 1 < R.toNat; omega, rfl, rfl, by show setupStar R.toNat < R.toNat; omega⟩
    rw [BitVec.ofNat_toNat, BitVec.ofNat_toNat, BitVec.setWidth_eq, BitVec.setWidth_eq] at hw
    obtain ⟨w, hw, hw'⟩ := hw
    rw [hw, pure_bind]
    exact wrapUp_throws p hk hM hC hw'
  · rw [if_neg (by omega), if_neg (by omega)]
    have hw := mod_wander_ok p hM hR hC T (v := ⟨s, m, (setupVars R.toNat).prev, 0, (setupVars R.toNat).rowa, 0⟩)
      (V := ⟨s, _, R.toNat - 1, setupStar R.toNat, 0⟩)
      ⟨rfl, h3, rfl, by show R.toNat - 1 < R.toNat; omega, rfl, rfl, by show setupStar R.toNat < R.toNat; omega, rfl⟩
    rw [BitVec.ofNat_toNat, BitVec.ofNat_toNat, BitVec.setWidth_eq, BitVec.setWidth_eq] at hw
    obtain ⟨w, hw, hw'⟩ := hw
    rw [hw, pure_bind, mod_wrapUp]
    exact wrapUp_throws p hk hM hC (v := ⟨w.state, w.m, w.prev, w.row, w.rowa⟩)
      ⟨hw'.s, hw'.m, hw'.prev, hw'.prev_lt, hw'.row, hw'.rowa, hw'.rowa_lt⟩

end Proofs.Lyra2

import Verif.Model.Target
import Verif.Proofs.Lyra2Total

/-! With 64-bit `usize` the model `Model.Target` is the model `Model.Lyra2`. -/

namespace Proofs.Target
open Rust Rust.Res Model.Target
open Model.Lyra2 (State Matrix BLOCKLENBYTES)

theorem usz_64 (x : BitVec 64) : usz 64 x = x.toNat := Nat.mod_eq_of_lt x.isLt

theorem vecOf_64 {α : Type} (e : Nat) (x : α) (n : Nat) : vecOf 64 e x n = Rust.vecOf e x n := rfl

theorem usizeAdd_64 : usizeAdd 64 = Rust.usizeAdd := rfl

theorem alloc_64 : allocMatrix 64 = Model.Lyra2.allocMatrix := by
  funext p R C; unfold allocMatrix Model.Lyra2.allocMatrix; simp only [usz_64, vecOf_64]

theorem nBlocks_64 : nBlocksInput 64 = Model.Lyra2.nBlocksInput := by
  funext p a b; unfold nBlocksInput Model.Lyra2.nBlocksInput; simp only [usizeAdd_64]

theorem writeInput_64 : writeInput 64 = Model.Lyra2.writeInput := by
  funext p k a b T R C n m; unfold writeInput Model.Lyra2.writeInput; simp only [usz_64]

theorem squeezeRow0_64 : squeezeRow0 64 = Model.Lyra2.squeezeRow0 := by
  funext p C s m; unfold squeezeRow0 Model.Lyra2.squeezeRow0; simp only [usz_64]

theorem idxRow0_64 : idxRow0 64 = Model.Lyra2.idxRow0 := by
  funext p i w; unfold idxRow0 Model.Lyra2.idxRow0; simp only [usz_64]

theorem idxRow1Rev_64 : idxRow1Rev 64 = Model.Lyra2.idxRow1Rev := by
  funext p C l i w; unfold idxRow1Rev Model.Lyra2.idxRow1Rev; simp only [usz_64]

theorem idx_64 : idx 64 = Model.Lyra2.idx := by
  funext p l i r w; unfold idx Model.Lyra2.idx; simp only [usz_64]

theorem idxRev_64 : idxRev 64 = Model.Lyra2.idxRev := by
  funext p C l i r w; unfold idxRev Model.Lyra2.idxRev; simp only [usz_64]

theorem duplexRow1_64 : duplexRow1 64 = Model.Lyra2.duplexRow1 := by
  unfold duplexRow1 Model.Lyra2.duplexRow1; rw [idxRow0_64, idxRow1Rev_64]

theorem absorbSum_64 : absorbSum 64 = Model.Lyra2.absorbSum := by
  unfold absorbSum Model.Lyra2.absorbSum; rw [idx_64]

theorem xorRotW_64 : xorRotW 64 = Model.Lyra2.xorRotW := by
  unfold xorRotW Model.Lyra2.xorRotW; rw [idx_64]

theorem duplexRowSetup_64 : duplexRowSetup 64 = Model.Lyra2.duplexRowSetup := by
  unfold duplexRowSetup Model.Lyra2.duplexRowSetup; rw [absorbSum_64, xorRotW_64, idx_64, idxRev_64]

theorem setupRows_64 : setupRows 64 = Model.Lyra2.setupRows := by
  unfold setupRows Model.Lyra2.setupRows; rw [duplexRowSetup_64]

theorem duplexRow_64 : duplexRow 64 = Model.Lyra2.duplexRow := by
  unfold duplexRow Model.Lyra2.duplexRow; rw [absorbSum_64, xorRotW_64, idx_64]

theorem wanderBody_64 : wanderBody 64 = Model.Lyra2.wanderBody := by
  unfold wanderBody Model.Lyra2.wanderBody; rw [duplexRow_64]

theorem wander_64 : wander 64 = Model.Lyra2.wander := by
  unfold wander Model.Lyra2.wander; rw [wanderBody_64]

theorem modWanderBody_64 : modWanderBody 64 = Model.Lyra2mod.wanderBody := by
  funext p R C l step v
  unfold modWanderBody Model.Lyra2mod.wanderBody; rw [duplexRow_64, Lyra2.mod_duplexRow]; simp only [usz_64]

theorem modWander_64 : modWander 64 = Model.Lyra2mod.wander := by
  unfold modWander Model.Lyra2mod.wander; rw [modWanderBody_64, Lyra2.mod_wanderStep]

theorem isizeMax_ge {u : Nat} (hu : 16 ≤ u) : 32767 ≤ isizeMax u := by
  unfold Model.Target.isizeMax
  have : 2 ^ 15 ≤ 2 ^ (u - 1) := Nat.pow_le_pow_right (by decide) (by omega)
  omega

theorem usz_small {u : Nat} (hu : 16 ≤ u) {x : BitVec 64} (hx : x.toNat ≤ 96) : usz u x = x.toNat := by
  have : 2 ^ 16 ≤ 2 ^ u := Nat.pow_le_pow_right (by decide) hu
  exact Nat.mod_eq_of_lt (by omega)

/-- `squeeze` of at most 96 bytes, on any target. -/
theorem squeeze_short {u : Nat} (hu : 16 ≤ u) (p : Profile) (s : State) (k : U64) (hk : k.toNat ≤ 96) :
    squeeze u p s k = pure (((s.toList.take 12).flatMap toLeBytes64).take k.toNat) := by
  have hi := isizeMax_ge hu
  have hk' : k = BitVec.ofNat 64 k.toNat := by simp
  have hj : iadd p (idiv k BLOCKLENBYTES) 1 = pure (BitVec.ofNat 64 (k.toNat / 96 + 1)) := by
    rw [hk', show BLOCKLENBYTES = BitVec.ofNat 64 96 from rfl, idiv_ofNat (by omega) (by omega),
      show (1 : BitVec 64) = BitVec.ofNat 64 1 from rfl, iadd_ofNat p (by omega), ← hk']
  unfold squeeze Model.Target.vecOf
  rw [usz_small hu hk, if_pos (by omega), hj, pure_bind, pure_bind, show (0 : BitVec 64) = BitVec.ofNat 64 0 from rfl,
    irangeLen_ofNat (by omega) (by omega)]
  generalize k.toNat = k at *
  have := forLoop_sat (fun j (x : List U8 × List U8 × State) =>
      x.1.length = 96 * j ∧ (j = 0 → x = ([], (Array.replicate k (0 : U8)).toList, s)) ∧
      (0 < j → (s.toList.take 12).flatMap toLeBytes64 <+: x.1 ∧
        x.2.1 = ((s.toList.take 12).flatMap toLeBytes64).take k)) 0 (k / 96 + 1 - 0)
    ([], (Array.replicate k (0 : U8)).toList, s) ⟨rfl, fun _ => rfl, fun h => absurd h (by omega)⟩
    (body := fun _ (tmp, _, state) => do
      let tmp ← extend u tmp ((state.toList.take 12).flatMap toLeBytes64)
      let out ← slice tmp 0 k
      let state := Model.Lyra2.blake2b_lyra state
      pure (tmp, out, state)) ?_
  · obtain ⟨x, h1, h2⟩ := this
    rw [h1, pure_bind]
    rw [← (h2.2.2 (by omega)).2]
  · rintro j ⟨tmp, out, st⟩ hj ⟨h0, h1, h2⟩
    simp only at h0 h1 h2 ⊢
    have hpre : (s.toList.take 12).flatMap toLeBytes64 <+: tmp ++ (st.toList.take 12).flatMap toLeBytes64 := by
      by_cases h0 : j = 0
      · have h1 := h1 h0
        simp only [Prod.mk.injEq] at h1
        obtain ⟨rfl, -, rfl⟩ := h1
        simp
      · exact (h2 (by omega)).1.trans (List.prefix_append _ _)
    have hlen := Lyra2.rateBytes_length s
    have hlen' := Lyra2.rateBytes_length st
    unfold extend
    rw [if_pos (by rw [hlen', h0]; omega), pure_bind]
    have hl : (tmp ++ (st.toList.take 12).flatMap toLeBytes64).length = 96 * (j + 1) := by
      rw [List.length_append, hlen', h0]; ring
    obtain ⟨t, ht⟩ := hpre
    rw [← ht] at hl ⊢
    unfold slice
    rw [if_pos ⟨by omega, by rw [hl]; omega⟩, pure_bind]
    refine .pure ⟨hl, fun h => absurd h (by omega), fun _ => ⟨List.prefix_append _ _, ?_⟩⟩
    simp only [List.drop_zero, Nat.sub_zero]
    rw [List.take_append_of_le_length (by omega)]

/-- With 64-bit `usize` the limit on the length of `tmp` plays no role. -/
theorem squeeze_64 : squeeze 64 = Model.Lyra2.squeeze := by
  funext p s k
  by_cases hk : k.toNat ≤ 96
  · have := Lyra2.squeeze_ok p s hk
    rw [BitVec.ofNat_toNat, BitVec.setWidth_eq] at this
    rw [squeeze_short (by decide) p s k hk, this]
  · unfold squeeze Model.Lyra2.squeeze
    rw [usz_64, vecOf_64]
    unfold Rust.vecOf
    by_cases hbig : 1 * k.toNat ≤ Rust.isizeMax
    · rw [if_pos hbig, pure_bind, pure_bind]
      unfold Rust.isizeMax at hbig
      have hk' : k = BitVec.ofNat 64 k.toNat := by simp
      have hj : iadd p (idiv k BLOCKLENBYTES) 1 = pure (BitVec.ofNat 64 (k.toNat / 96 + 1)) := by
        rw [hk', show BLOCKLENBYTES = BitVec.ofNat 64 96 from rfl, idiv_ofNat (by omega) (by omega),
          show (1 : BitVec 64) = BitVec.ofNat 64 1 from rfl, iadd_ofNat p (by omega), ← hk']
      rw [hj, pure_bind, pure_bind, show (0 : BitVec 64) = BitVec.ofNat 64 0 from rfl, irangeLen_ofNat (by omega) (by omega),
        Nat.sub_zero]
      have hlen := Lyra2.rateBytes_length s
      simp only [forLoop, extend, List.nil_append, List.length_nil, Nat.zero_add]
      rw [if_pos (by rw [hlen]; decide), pure_bind]
      unfold slice
      rw [if_neg (by rw [hlen]; omega)]
      rfl
    · rw [if_neg hbig]; rfl

/-- With 32-bit `usize`, more than 96 and fewer than `2^63` bytes always panic. -/
theorem squeeze_32_panics (p : Profile) (s : State) (k : U64) (hk : 96 < k.toNat) (hk' : k.toNat < 2 ^ 63) :
    (squeeze 32 p s k).Panics := by
  unfold squeeze Model.Target.vecOf
  by_cases hbig : 1 * usz 32 k ≤ isizeMax 32
  swap
  · rw [if_neg hbig]; exact ⟨_, rfl⟩
  rw [if_pos hbig, pure_bind]
  have ek : k = BitVec.ofNat 64 k.toNat := by simp
  have hj : iadd p (idiv k BLOCKLENBYTES) 1 = pure (BitVec.ofNat 64 (k.toNat / 96 + 1)) := by
    rw [ek, show BLOCKLENBYTES = BitVec.ofNat 64 96 from rfl, idiv_ofNat (by omega) (by omega),
      show (1 : BitVec 64) = BitVec.ofNat 64 1 from rfl, iadd_ofNat p (by omega), ← ek]
  rw [hj, pure_bind, show (0 : BitVec 64) = BitVec.ofNat 64 0 from rfl, irangeLen_ofNat (by omega) (by omega)]
  refine Post.panics (Post.bind (Q := fun _ => False) ?_ fun _ h => h.elim)
  -- after `j` rounds `tmp` has `96 * j` bytes
  have := forLoop_post (fun j (x : List U8 × List U8 × State) => x.1.length = 96 * j ∧ 96 * j < 2 ^ 31 ∧ (0 < j → usz 32 k ≤ 96)) 0
    (k.toNat / 96 + 1 - 0) (([] : List U8), (Array.replicate (usz 32 k) (0 : U8)).toList, s) ⟨rfl, by decide, fun h => absurd h (by omega)⟩
    (body := fun _ (tmp, _, state) => do
      let tmp ← extend 32 tmp ((state.toList.take 12).flatMap toLeBytes64)
      let out ← slice tmp 0 (usz 32 k)
      let state := Model.Lyra2.blake2b_lyra state
      pure (tmp, out, state)) ?_
  · refine this.mono fun x hx => ?_
    have h1 := hx.2.1
    have h2 := hx.2.2 (by omega)
    unfold usz at h2
    omega
  · rintro j ⟨tmp, out, st⟩ hj ⟨h0, h1, h2⟩
    dsimp only at h0 h1 h2 ⊢
    have hlen' := Lyra2.rateBytes_length st
    unfold extend
    split
    · rename_i h
      rw [hlen', h0, show isizeMax 32 = 2 ^ 31 - 1 from rfl] at h
      rw [pure_bind]
      unfold slice
      split
      · rename_i h'
        rw [List.length_append, hlen', h0] at h'
        refine .pure ⟨by rw [List.length_append, hlen', h0]; ring, by omega, fun _ => ?_⟩
        by_cases e : j = 0
        · subst e; omega
        · exact h2 (by omega)
      · exact .throw
    · exact .throw

/-- With 32-bit `usize`, `2^63` bytes or more: no round at all, the vector of zeros is returned as it was allocated. -/
theorem squeeze_32_zeros (p : Profile) (s : State) (k : U64) (hk : 2 ^ 63 ≤ k.toNat) :
    if k.toNat % 2 ^ 32 < 2 ^ 31 then squeeze 32 p s k = pure (List.replicate (k.toNat % 2 ^ 32) 0)
    else (squeeze 32 p s k).Panics := by
  have hk' := k.isLt
  unfold squeeze Model.Target.vecOf
  split
  · rename_i h
    rw [if_pos (by show 1 * (k.toNat % 2 ^ 32) ≤ 2 ^ 31 - 1; omega), pure_bind]
    have hki : k.toInt = (k.toNat : Int) - 2 ^ 64 := by
      rw [BitVec.toInt_eq_toNat_cond, if_neg (by omega)]; norm_cast
    have hd : (idiv k BLOCKLENBYTES).toInt = Int.tdiv k.toInt 96 := by
      unfold idiv
      rw [BitVec.toInt_sdiv_of_ne_or_ne]
      · rfl
      · right; decide
    have hneg : k.toInt ≤ -96 := by omega
    have hq : Int.tdiv k.toInt 96 ≤ -1 ∧ -2 ^ 62 ≤ Int.tdiv k.toInt 96 := by
      have e : Int.tdiv k.toInt 96 = -((-k.toInt) / 96) := by
        rw [← Int.tdiv_eq_ediv_of_nonneg (by omega), Int.neg_tdiv, Int.neg_neg]
      omega
    have hadd : (idiv k BLOCKLENBYTES + 1).toInt = Int.tdiv k.toInt 96 + 1 := by
      rw [BitVec.toInt_add, hd, Int.bmod_eq_of_le] <;> simp <;> omega
    have hj : iadd p (idiv k BLOCKLENBYTES) 1 = pure (idiv k BLOCKLENBYTES + 1) := by
      unfold iadd
      rw [if_neg]
      have : BitVec.saddOverflow (idiv k BLOCKLENBYTES) 1 = false := by
        unfold BitVec.saddOverflow
        rw [hd]
        simp
        omega
      rw [this]; simp
    have hr : irangeLen 0 (idiv k BLOCKLENBYTES + 1) = 0 := by
      unfold irangeLen
      rw [hadd]
      simp
      omega
    rw [hj, pure_bind, hr]
    simp only [forLoop, pure_bind]
    simp [usz]
  · rename_i h
    rw [if_neg (by show ¬ 1 * (k.toNat % 2 ^ 32) ≤ 2 ^ 31 - 1; omega)]
    exact ⟨_, rfl⟩

theorem wrapUp_64 : wrapUp 64 = Model.Lyra2.wrapUp := by
  funext p k l v; unfold wrapUp Model.Lyra2.wrapUp; rw [squeeze_64]; simp only [usz_64]

theorem lyra2_64 : lyra2 64 = Model.Lyra2.lyra2 := by
  unfold lyra2 Model.Lyra2.lyra2
  rw [alloc_64, nBlocks_64, writeInput_64, squeezeRow0_64, duplexRow1_64, setupRows_64, wander_64, wrapUp_64]

theorem lyra2mod_64 : lyra2mod 64 = Model.Lyra2mod.lyra2mod := by
  funext p k a b T R C
  unfold lyra2mod Model.Lyra2mod.lyra2mod
  rw [alloc_64, nBlocks_64, writeInput_64, squeezeRow0_64, duplexRow1_64, setupRows_64, modWander_64, wrapUp_64]
  rw [Lyra2.mod_alloc, Lyra2.mod_nBlocks, Lyra2.mod_writeInput, Lyra2.mod_squeezeRow0, Lyra2.mod_duplexRow1, Lyra2.mod_setupRows,
    Lyra2.mod_absorbInput, Lyra2.mod_init]
  simp only [Lyra2.mod_wrapUp]

end Proofs.Target

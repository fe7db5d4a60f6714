import Verif.Model.LogTarget
import Verif.Proofs.LogErase
import Verif.Proofs.Target64

/-! With 64-bit `usize` the model `Model.LogTarget` is the model `Model.Log`. -/

namespace Proofs.LogTarget
open Rust hiding forLoop loop unroll12
open Rust.Res Model.LogTarget Proofs.Target
open Model.Log (Logged LoggedOf quiet)
open Model.Lyra2 (State Matrix BLOCKLENBYTES)
open Model.Target (usz)

theorem writeInput_64 : writeInput 64 = Model.Log.writeInput := by
  funext p k a b T R C n m; unfold writeInput Model.Log.writeInput; simp only [usz_64]

theorem squeezeRow0_64 : squeezeRow0 64 = Model.Log.squeezeRow0 := by
  funext p C s m; unfold squeezeRow0 Model.Log.squeezeRow0; simp only [usz_64]

theorem duplexRow1_64 : duplexRow1 64 = Model.Log.duplexRow1 := by
  unfold duplexRow1 Model.Log.duplexRow1; rw [idxRow0_64, idxRow1Rev_64]

theorem absorbSum_64 : absorbSum 64 = Model.Log.absorbSum := by
  unfold absorbSum Model.Log.absorbSum; rw [idx_64]

theorem xorRotW_64 : xorRotW 64 = Model.Log.xorRotW := by
  unfold xorRotW Model.Log.xorRotW; rw [idx_64]

theorem duplexRowSetup_64 : duplexRowSetup 64 = Model.Log.duplexRowSetup := by
  unfold duplexRowSetup Model.Log.duplexRowSetup; rw [absorbSum_64, xorRotW_64, idx_64, idxRev_64]

theorem setupRows_64 : setupRows 64 = Model.Log.setupRows := by
  unfold setupRows Model.Log.setupRows; rw [duplexRowSetup_64]

theorem duplexRow_64 : duplexRow 64 = Model.Log.duplexRow := by
  unfold duplexRow Model.Log.duplexRow; rw [absorbSum_64, xorRotW_64, idx_64]

theorem wanderBody_64 : wanderBody 64 = Model.Log.wanderBody := by
  unfold wanderBody Model.Log.wanderBody; rw [duplexRow_64]

theorem wander_64 : wander 64 = Model.Log.wander := by
  unfold wander Model.Log.wander; rw [wanderBody_64]

theorem modWanderBody_64 : modWanderBody 64 = Model.Log.modWanderBody := by
  funext p R C l step v
  unfold modWanderBody Model.Log.modWanderBody; rw [duplexRow_64]; simp only [usz_64]

theorem modWander_64 : modWander 64 = Model.Log.modWander := by
  unfold modWander Model.Log.modWander; rw [modWanderBody_64]

theorem beforeWander_64 : beforeWander 64 = Model.Log.beforeWander := by
  unfold beforeWander Model.Log.beforeWander
  rw [alloc_64, nBlocks_64, writeInput_64, squeezeRow0_64, duplexRow1_64, setupRows_64]

theorem bind_quiet_congr {ε α β : Type} {m : Res α} {f g : α → LoggedOf ε β} (h : ∀ a, m = pure a → f a = g a) :
    (quiet m >>= f) = (quiet m >>= g) := by
  funext log
  show (quiet m log >>= fun x => f x.1 x.2) = (quiet m log >>= fun x => g x.1 x.2)
  unfold quiet
  rw [bind_assoc, bind_assoc]
  rcases Res.cases m with ⟨a, ha⟩ | ⟨e, he⟩ | hd
  · rw [ha]
    simp only [pure_bind]
    rw [h a ha]
  · rw [he]; rfl
  · rw [show m = none from hd]; rfl

theorem quiet_pure {ε α : Type} (a : α) : quiet (ε := ε) (pure a : Res α) = pure a := by
  funext log; rfl

theorem quiet_throw_bind {ε α β : Type} (e : Panic) (f : α → LoggedOf ε β) : (quiet (throw e) >>= f) = quiet (throw e) := rfl

theorem forLoopL_zero {ε σ : Type} (i : Nat) (body : Nat → σ → LoggedOf ε σ) (s : σ) : Model.Log.forLoop i 0 body s = pure s := rfl

theorem forLoopL_succ {ε σ : Type} (i n : Nat) (body : Nat → σ → LoggedOf ε σ) (s : σ) :
    Model.Log.forLoop i (n + 1) body s = body i s >>= fun s => Model.Log.forLoop (i + 1) n body s := rfl

/-- The first round of the loop of `squeeze`, which adds 96 bytes to an empty vector. -/
theorem extend_first {u : Nat} (hu : 16 ≤ u) (s : State) :
    Model.Target.extend u [] ((s.toList.take 12).flatMap toLeBytes64) = pure ((s.toList.take 12).flatMap toLeBytes64) := by
  have := Lyra2.rateBytes_length s
  have := isizeMax_ge hu
  unfold Model.Target.extend
  rw [if_pos (by simp only [List.length_nil]; omega), List.nil_append]

theorem jmax_small (p : Profile) {k : U64} (hk : k.toNat < 2 ^ 63) :
    iadd p (idiv k BLOCKLENBYTES) 1 = pure (BitVec.ofNat 64 (k.toNat / 96 + 1)) := by
  have hk' : k = BitVec.ofNat 64 k.toNat := by simp
  rw [hk', show BLOCKLENBYTES = BitVec.ofNat 64 96 from rfl, idiv_ofNat (by omega) (by omega),
    show (1 : BitVec 64) = BitVec.ofNat 64 1 from rfl, iadd_ofNat p (by omega), ← hk']

/-- A key of at most 96 bytes: one or two rounds, on any target. -/
theorem squeeze_short {u : Nat} (hu : 16 ≤ u) (p : Profile) (s : State) (k : U64) (hk : k.toNat ≤ 96) :
    squeeze u p s k = Model.Log.squeeze p s k := by
  have hi := isizeMax_ge hu
  unfold squeeze Model.Log.squeeze
  unfold Model.Target.vecOf Rust.vecOf
  rw [usz_small hu hk, if_pos (by omega), if_pos (by unfold Rust.isizeMax; omega), quiet_pure, pure_bind, pure_bind,
    jmax_small p (by omega), quiet_pure, pure_bind, pure_bind, show (0 : BitVec 64) = BitVec.ofNat 64 0 from rfl,
    irangeLen_ofNat (by omega) (by omega)]
  by_cases h96 : k.toNat = 96
  · rw [h96]
    simp only [forLoopL_succ, forLoopL_zero, extend_first hu, quiet_pure, pure_bind, bind_assoc]
    have h2 : ∀ s' : State, Model.Target.extend u ((s.toList.take 12).flatMap toLeBytes64) ((s'.toList.take 12).flatMap toLeBytes64) =
        pure ((s.toList.take 12).flatMap toLeBytes64 ++ (s'.toList.take 12).flatMap toLeBytes64) := by
      intro s'
      have := Lyra2.rateBytes_length s
      have := Lyra2.rateBytes_length s'
      unfold Model.Target.extend
      rw [if_pos (by omega)]
    simp only [h2, quiet_pure, pure_bind, List.nil_append]
  · rw [show k.toNat / 96 + 1 - 0 = 1 by omega]
    simp only [forLoopL_succ, forLoopL_zero, extend_first hu, quiet_pure, pure_bind, bind_assoc, List.nil_append]

/-- With 64-bit `usize` the limit on the length of `tmp` plays no role: more than 96 bytes panic in the first round, or the loop has no
rounds at all. -/
theorem squeeze_64 : squeeze 64 = Model.Log.squeeze := by
  funext p s k
  by_cases hk : k.toNat ≤ 96
  · exact squeeze_short (by decide) p s k hk
  · unfold squeeze Model.Log.squeeze
    rw [usz_64, vecOf_64]
    refine bind_quiet_congr fun out hout => ?_
    have hbig : k.toNat < 2 ^ 63 := by
      unfold Rust.vecOf Rust.isizeMax at hout
      split at hout
      · omega
      · cases hout
    rw [jmax_small p hbig, quiet_pure, pure_bind, pure_bind, show (0 : BitVec 64) = BitVec.ofNat 64 0 from rfl,
      irangeLen_ofNat (by omega) (by omega), Nat.sub_zero]
    have hl := Lyra2.rateBytes_length s
    have hs : slice ((s.toList.take 12).flatMap toLeBytes64) 0 k.toNat = throw .bounds := by
      unfold slice
      rw [if_neg (by rw [hl]; omega)]
    simp only [forLoopL_succ, extend_first (show 16 ≤ 64 by decide), quiet_pure, pure_bind, List.nil_append, hs, quiet_throw_bind]

theorem wrapUp_64 : wrapUp 64 = Model.Log.wrapUp := by
  funext p k l a m s; unfold wrapUp Model.Log.wrapUp; rw [squeeze_64]; simp only [usz_64]

theorem lyra2_64 : lyra2 64 = Model.Log.lyra2 := by
  unfold lyra2 Model.Log.lyra2; rw [beforeWander_64, wander_64, wrapUp_64]

theorem lyra2mod_64 : lyra2mod 64 = Model.Log.lyra2mod := by
  unfold lyra2mod Model.Log.lyra2mod; rw [beforeWander_64, modWander_64, wrapUp_64]

theorem lyra2re_64 : lyra2re 64 = Model.Log.Chains.lyra2re := by
  unfold lyra2re Model.Log.Chains.lyra2re; rw [lyra2_64]

theorem lyra2rev2_64 : lyra2rev2 64 = Model.Log.Chains.lyra2rev2 := by
  unfold lyra2rev2 Model.Log.Chains.lyra2rev2 lyra2Sum Model.Log.Chains.lyra2Sum; rw [lyra2_64]

theorem lyra2rev3_64 : lyra2rev3 64 = Model.Log.Chains.lyra2rev3 := by
  unfold lyra2rev3 Model.Log.Chains.lyra2rev3 lyra2modSum Model.Log.Chains.lyra2modSum; rw [lyra2mod_64]

theorem lyra2z_64 : lyra2z 64 = Model.Log.Chains.lyra2z := by
  unfold lyra2z Model.Log.Chains.lyra2z; rw [lyra2_64]

end Proofs.LogTarget

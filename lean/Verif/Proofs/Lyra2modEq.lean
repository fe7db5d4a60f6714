import Verif.Model.Lyra2mod

/-! Up to the selection of `row*`, the functions of `lyra2mod/mod.rs` are those of `lyra2.rs`. -/

namespace Proofs.Lyra2
open Rust

theorem mod_g : Model.Lyra2mod.g = Model.Lyra2.g := rfl
theorem mod_gAt : Model.Lyra2mod.gAt = Model.Lyra2.gAt := by
  unfold Model.Lyra2mod.gAt Model.Lyra2.gAt; rw [mod_g]
theorem mod_round : Model.Lyra2mod.round_lyra = Model.Lyra2.round_lyra := by
  unfold Model.Lyra2mod.round_lyra Model.Lyra2.round_lyra; rw [mod_gAt]
theorem mod_blake2b : Model.Lyra2mod.blake2b_lyra = Model.Lyra2.blake2b_lyra := by
  unfold Model.Lyra2mod.blake2b_lyra Model.Lyra2.blake2b_lyra; rw [mod_round]
theorem mod_reduced : Model.Lyra2mod.reduced_blake2b_lyra = Model.Lyra2.reduced_blake2b_lyra := by
  unfold Model.Lyra2mod.reduced_blake2b_lyra Model.Lyra2.reduced_blake2b_lyra; rw [mod_round]
theorem mod_iv : Model.Lyra2mod.BLAKE2BIV = Model.Lyra2.BLAKE2BIV := by
  unfold Model.Lyra2mod.BLAKE2BIV Model.Lyra2.BLAKE2BIV; rfl
theorem mod_init : Model.Lyra2mod.init_state = Model.Lyra2.init_state := by
  unfold Model.Lyra2mod.init_state Model.Lyra2.init_state; rw [mod_iv]
theorem mod_len : Model.Lyra2mod.BLOCKLENINT64 = Model.Lyra2.BLOCKLENINT64 := by
  unfold Model.Lyra2mod.BLOCKLENINT64 Model.Lyra2.BLOCKLENINT64; rfl
theorem mod_lenBytes : Model.Lyra2mod.BLOCKLENBYTES = Model.Lyra2.BLOCKLENBYTES := by
  unfold Model.Lyra2mod.BLOCKLENBYTES Model.Lyra2.BLOCKLENBYTES; rfl
theorem mod_safe : Model.Lyra2mod.BLOCKLENBLAKE2SAFEINT64 = Model.Lyra2.BLOCKLENBLAKE2SAFEINT64 := by
  unfold Model.Lyra2mod.BLOCKLENBLAKE2SAFEINT64 Model.Lyra2.BLOCKLENBLAKE2SAFEINT64; rfl
theorem mod_safeBytes : Model.Lyra2mod.BLOCKLENBLAKE2SAFEBYTES = Model.Lyra2.BLOCKLENBLAKE2SAFEBYTES := by
  unfold Model.Lyra2mod.BLOCKLENBLAKE2SAFEBYTES Model.Lyra2.BLOCKLENBLAKE2SAFEBYTES; rfl
theorem mod_squeeze : Model.Lyra2mod.squeeze = Model.Lyra2.squeeze := by
  unfold Model.Lyra2mod.squeeze Model.Lyra2.squeeze; rw [mod_blake2b, mod_lenBytes]
theorem mod_absorb_block : Model.Lyra2mod.absorb_block = Model.Lyra2.absorb_block := by
  unfold Model.Lyra2mod.absorb_block Model.Lyra2.absorb_block; rw [mod_blake2b]
theorem mod_absorb_safe : Model.Lyra2mod.absorb_block_blake2_safe = Model.Lyra2.absorb_block_blake2_safe := by
  unfold Model.Lyra2mod.absorb_block_blake2_safe Model.Lyra2.absorb_block_blake2_safe; rw [mod_blake2b]
theorem mod_alloc : Model.Lyra2mod.allocMatrix = Model.Lyra2.allocMatrix := by
  unfold Model.Lyra2mod.allocMatrix Model.Lyra2.allocMatrix; rw [mod_len]
theorem mod_nBlocks : Model.Lyra2mod.nBlocksInput = Model.Lyra2.nBlocksInput := by
  unfold Model.Lyra2mod.nBlocksInput Model.Lyra2.nBlocksInput; rw [mod_safeBytes]
theorem mod_writeWords : Model.Lyra2mod.writeWords = Model.Lyra2.writeWords := by
  unfold Model.Lyra2mod.writeWords Model.Lyra2.writeWords; rfl
theorem mod_writeInput : Model.Lyra2mod.writeInput = Model.Lyra2.writeInput := by
  unfold Model.Lyra2mod.writeInput Model.Lyra2.writeInput; rw [mod_writeWords, mod_safeBytes]
theorem mod_absorbInput : Model.Lyra2mod.absorbInput = Model.Lyra2.absorbInput := by
  unfold Model.Lyra2mod.absorbInput Model.Lyra2.absorbInput; rw [mod_absorb_safe]
theorem mod_squeezeRow0 : Model.Lyra2mod.squeezeRow0 = Model.Lyra2.squeezeRow0 := by
  unfold Model.Lyra2mod.squeezeRow0 Model.Lyra2.squeezeRow0; rw [mod_reduced, mod_len]
theorem mod_idxRow0 : Model.Lyra2mod.idxRow0 = Model.Lyra2.idxRow0 := by
  unfold Model.Lyra2mod.idxRow0 Model.Lyra2.idxRow0; rw [mod_len]
theorem mod_idxRow1Rev : Model.Lyra2mod.idxRow1Rev = Model.Lyra2.idxRow1Rev := by
  unfold Model.Lyra2mod.idxRow1Rev Model.Lyra2.idxRow1Rev; rw [mod_len]
theorem mod_idx : Model.Lyra2mod.idx = Model.Lyra2.idx := by
  unfold Model.Lyra2mod.idx Model.Lyra2.idx; rw [mod_len]
theorem mod_idxRev : Model.Lyra2mod.idxRev = Model.Lyra2.idxRev := by
  unfold Model.Lyra2mod.idxRev Model.Lyra2.idxRev; rw [mod_len]
theorem mod_duplexRow1 : Model.Lyra2mod.duplexRow1 = Model.Lyra2.duplexRow1 := by
  unfold Model.Lyra2mod.duplexRow1 Model.Lyra2.duplexRow1; rw [mod_reduced, mod_idxRow0, mod_idxRow1Rev]
theorem mod_absorbSum : Model.Lyra2mod.absorbSum = Model.Lyra2.absorbSum := by
  unfold Model.Lyra2mod.absorbSum Model.Lyra2.absorbSum; rw [mod_idx]
theorem mod_xorRotW : Model.Lyra2mod.xorRotW = Model.Lyra2.xorRotW := by
  unfold Model.Lyra2mod.xorRotW Model.Lyra2.xorRotW; rw [mod_idx]
theorem mod_duplexRowSetup : Model.Lyra2mod.duplexRowSetup = Model.Lyra2.duplexRowSetup := by
  unfold Model.Lyra2mod.duplexRowSetup Model.Lyra2.duplexRowSetup
  rw [mod_reduced, mod_absorbSum, mod_xorRotW, mod_idx, mod_idxRev]
theorem mod_setupStart : Model.Lyra2mod.setupStart = Model.Lyra2.SetupVars.start := by
  unfold Model.Lyra2mod.setupStart Model.Lyra2.SetupVars.start; rfl
theorem mod_setupNext : Model.Lyra2mod.setupNext = Model.Lyra2.SetupVars.next := by
  unfold Model.Lyra2mod.setupNext Model.Lyra2.SetupVars.next; rfl
theorem mod_setupRows : Model.Lyra2mod.setupRows = Model.Lyra2.setupRows := by
  unfold Model.Lyra2mod.setupRows Model.Lyra2.setupRows; rw [mod_duplexRowSetup, mod_setupNext, mod_setupStart]
theorem mod_duplexRow : Model.Lyra2mod.duplexRow = Model.Lyra2.duplexRow := by
  unfold Model.Lyra2mod.duplexRow Model.Lyra2.duplexRow
  rw [mod_reduced, mod_absorbSum, mod_xorRotW, mod_idx]
theorem mod_wanderStep : Model.Lyra2mod.wanderStep = Model.Lyra2.wanderStep := by
  unfold Model.Lyra2mod.wanderStep Model.Lyra2.wanderStep; rfl

/-- The last phase of `lyra2mod` is that of `lyra2` on the common variables. -/
theorem mod_wrapUp (p : Profile) (k : U64) (l : I64) (v : Model.Lyra2mod.WanderVars) :
    Model.Lyra2mod.wrapUp p k l v = Model.Lyra2.wrapUp p k l ⟨v.state, v.m, v.prev, v.row, v.rowa⟩ := by
  unfold Model.Lyra2mod.wrapUp Model.Lyra2.wrapUp; rw [mod_absorb_block, mod_squeeze]

end Proofs.Lyra2

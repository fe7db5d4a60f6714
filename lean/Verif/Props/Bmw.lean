import Verif.Proofs.BmwSum
import Verif.Proofs.BmwInv

/-! Properties C28 - C32: the BMW stage. -/

namespace Props
open Rust Rust.Res

/-! ## C28 -/

/-- **C28** The stage returns 32 bytes for every input of at most 63 bytes and panics for every longer one. -/
theorem C28_domain (input : List U8) :
    (input.length ≤ 63 → ∃ out, (Model.Bmw.sum input).Returns out ∧ out.length = 32) ∧
      (64 ≤ input.length → (Model.Bmw.sum input).Panics) :=
  ⟨fun h => ⟨_, Proofs.Bmw.sum_ok h, Proofs.Bmw.digest_length _⟩, Proofs.Bmw.sum_panics⟩

example : (Model.Bmw.sum (List.replicate 64 0)).Panics := (C28_domain _).2 (by decide)

/-! ## C29 -/

/-- **C29** On every input of at most 55 bytes the stage returns Blue Midnight Wish 256. -/
theorem C29_is_bmw (input : List U8) (h : input.length ≤ 55) : (Model.Bmw.sum input).Returns (Spec.Bmw.hash input) :=
  Proofs.Bmw.sum_hash h

example : (Model.Bmw.sum (List.replicate 32 7)).Returns (Spec.Bmw.hash (List.replicate 32 7)) := C29_is_bmw _ (by decide)

/-! ## C30 -/

/-- **C30** (i) Of an input of 56 to 63 bytes only the first 56 bytes and the length are used: such inputs collide. -/
theorem C30_collide (a b : List U8) (ha : 56 ≤ a.length) (ha' : a.length ≤ 63) (hl : a.length = b.length) (h : a.take 56 = b.take 56) :
    Model.Bmw.sum a = Model.Bmw.sum b := by
  rw [Proofs.Bmw.sum_ok ha', Proofs.Bmw.sum_ok (by omega), Proofs.Bmw.block_long ha, Proofs.Bmw.block_long (by omega), hl, h]

/-- Two 57-byte inputs that differ, and collide. -/
example : Model.Bmw.sum (List.replicate 56 0 ++ [1]) = Model.Bmw.sum (List.replicate 56 0 ++ [2]) :=
  C30_collide _ _ (by decide) (by decide) (by decide) (by decide)

theorem digest_ne_hash : ∀ k : Fin 8, Proofs.Bmw.digest (Proofs.Bmw.block (List.replicate (56 + k.val) 0)) ≠
    Spec.Bmw.hash (List.replicate (56 + k.val) 0) := by decide +kernel

/-- **C30** (ii) For each of these lengths there is an input on which the stage does not return Blue Midnight Wish 256. -/
theorem C30_not_bmw (n : Nat) (h : 56 ≤ n) (h' : n ≤ 63) :
    ∃ input : List U8, input.length = n ∧ ¬ (Model.Bmw.sum input).Returns (Spec.Bmw.hash input) := by
  refine ⟨List.replicate n 0, List.length_replicate, fun he => ?_⟩
  rw [Proofs.Bmw.sum_ok (by rw [List.length_replicate]; omega)] at he
  have := digest_ne_hash ⟨n - 56, by omega⟩
  rw [show 56 + (n - 56) = n by omega] at this
  exact this (Res.pure_inj he)

/-! ## C31 -/

/-- **C31** The stage compresses an input of at most 55 bytes as one block of 16 words, and different inputs give different
blocks: the code's buffer `buf` and words `m` determine the input. -/
theorem C31_block_injective (a b : List U8) (ha : a.length ≤ 55) (hb : b.length ≤ 55) (buf buf' : List U8) (m0 m m' : Vector U32 16)
    (h1 : (Model.Bmw.padBuf a).Returns buf) (h2 : (Model.Bmw.padBuf b).Returns buf') (h3 : (Model.Bmw.loadWords buf m0).Returns m)
    (h4 : (Model.Bmw.loadWords buf' m0).Returns m') (h : m = m') : a = b := by
  have e1 := Res.pure_inj ((Proofs.Bmw.padBuf_ok (show a.length ≤ 63 by omega)).symm.trans h1)
  have e2 := Res.pure_inj ((Proofs.Bmw.padBuf_ok (show b.length ≤ 63 by omega)).symm.trans h2)
  subst e1 e2
  have l1 := Proofs.Bmw.block_length (show a.length ≤ 63 by omega)
  have l2 := Proofs.Bmw.block_length (show b.length ≤ 63 by omega)
  have e3 := Res.pure_inj ((Proofs.Bmw.loadWords_ok l1 m0).symm.trans h3)
  have e4 := Res.pure_inj ((Proofs.Bmw.loadWords_ok l2 m0).symm.trans h4)
  have := Proofs.Bmw.words_inj l1 l2 (by rw [e3, e4, h])
  rw [Proofs.Bmw.block_short ha, Proofs.Bmw.block_short hb] at this
  exact Proofs.Bmw.pad_inj ha hb this

/-- The hypotheses hold for every input. -/
example (a : List U8) (ha : a.length ≤ 55) : ∃ buf m, (Model.Bmw.padBuf a).Returns buf ∧ (Model.Bmw.loadWords buf (Vector.replicate 16 0)).Returns m :=
  ⟨_, _, Proofs.Bmw.padBuf_ok (by omega), Proofs.Bmw.loadWords_ok (Proofs.Bmw.block_length (by omega)) _⟩

/-! ## C32 -/

/-- **C32** For every chaining value `h` the first 16 words of the extended pipe are a bijective function of the message
words, whatever the buffer `q` contained before. -/
theorem C32_pipe_bijective (h : Vector U32 16) (q : Vector U32 32) :
    Function.Bijective fun m : Vector U32 16 => Vector.ofFn fun i : Fin 16 => (Model.Bmw.pipe m h q)[i.val] := by
  rw [show (fun m : Vector U32 16 => Vector.ofFn fun i : Fin 16 => (Model.Bmw.pipe m h q)[i.val]) = Proofs.Bmw.half h from
    funext fun m => Proofs.Bmw.pipe_half m h q]
  exact Proofs.Bmw.half_bijective h

/-- The compression function does not depend on what the buffers contained before. -/
theorem C32_no_leftover (b b' : Model.Bmw.Bmw) (m : Vector U32 16) (h : b.h = b'.h) :
    (Model.Bmw.compress b m).h = (Model.Bmw.compress b' m).h := by
  rw [Proofs.Bmw.compress_eq, Proofs.Bmw.compress_eq, h]

end Props

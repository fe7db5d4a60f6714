import Verif.Proofs.CubeHash

/-! Properties C24 - C27: the CubeHash stage. `Proofs.CubeHash.vec c` lists the 32 fields `x0, ..., x9, xa, ..., xv` of the
code's state as the specification's words `x[0], ..., x[31]`. -/

namespace Props
open Rust Rust.Res
open Proofs.CubeHash (vec)

/-! ## C24 -/

/-- **C24** (i) The stage panics for fewer than 32 bytes, and otherwise returns 32 bytes. -/
theorem C24_domain (data : List U8) :
    (data.length < 32 → (Model.CubeHash.sum data).Panics) ∧
      (32 ≤ data.length → ∃ out, (Model.CubeHash.sum data).Returns out ∧ out.length = 32) := by
  constructor
  · intro h
    unfold Model.CubeHash.sum
    exact Panics.bind (Proofs.CubeHash.finalState_panics h)
  · intro h
    have h32 : (data.take 32).length = 32 := by rw [List.length_take]; omega
    refine ⟨_, ?_, Proofs.CubeHash.hash_length (data.take 32)⟩
    unfold Model.CubeHash.sum
    rw [Proofs.CubeHash.finalState_take h]
    exact Proofs.CubeHash.sum_ok h32

/-- **C24** (ii) The result depends on the first 32 bytes only. -/
theorem C24_prefix (data data' : List U8) (h : 32 ≤ data.length) (h' : 32 ≤ data'.length) (he : data.take 32 = data'.take 32) :
    Model.CubeHash.sum data = Model.CubeHash.sum data' := by
  unfold Model.CubeHash.sum
  rw [Proofs.CubeHash.finalState_take h, Proofs.CubeHash.finalState_take h', he]

/-- The excess of a 33-byte message is ignored, whatever it is. -/
example : Model.CubeHash.sum (List.replicate 32 1 ++ [0]) = Model.CubeHash.sum (List.replicate 32 1 ++ [5]) :=
  C24_prefix _ _ (by decide) (by decide) (by decide)

/-! ## C25 -/

/-- **C25** On every 32-byte message the stage returns CubeHash16/32-256. -/
theorem C25_is_cubehash (msg : List U8) (h : msg.length = 32) : (Model.CubeHash.sum msg).Returns (Spec.CubeHash.hash msg) :=
  Proofs.CubeHash.sum_ok h

/-- On longer messages it returns the CubeHash of the first 32 bytes, not that of the message. -/
theorem C25_longer (msg : List U8) (h : 32 ≤ msg.length) : (Model.CubeHash.sum msg).Returns (Spec.CubeHash.hash (msg.take 32)) := by
  have h32 : (msg.take 32).length = 32 := by rw [List.length_take]; omega
  rw [C24_prefix msg (msg.take 32) h (by omega) (by rw [List.take_take]; rfl)]
  exact C25_is_cubehash _ h32

example : (Model.CubeHash.sum (List.replicate 32 0)).Returns (Spec.CubeHash.hash (List.replicate 32 0)) :=
  C25_is_cubehash _ (by decide)

/-! ## C26 -/

/-- **C26** The unrolled code performs 16 rounds of the specified round function on every state, and the constant initial
state is the specified one (160 rounds on 32, 32, 16, 0, ...). -/
theorem C26_rounds_and_iv :
    (∀ c, vec (Model.CubeHash.sixteen_rounds c) = Spec.CubeHash.rounds 16 (vec c)) ∧
      vec Model.CubeHash.new_cube_hash = Spec.CubeHash.init :=
  ⟨Proofs.CubeHash.sixteen_eq, Proofs.CubeHash.iv_eq⟩

/-- The 16 rounds lose no information. -/
theorem C26_injective : Function.Injective Model.CubeHash.sixteen_rounds := fun c c' h =>
  Proofs.CubeHash.vec_inj (Proofs.CubeHash.rounds_inj 16 (by rw [← C26_rounds_and_iv.1, ← C26_rounds_and_iv.1, h]))

/-! ## C27 -/

/-- **C27** Two 32-byte messages with the same final state, before truncation to 32 bytes, are the same message. -/
theorem C27_final_state_injective (m m' : List U8) (c : Model.CubeHash.CubeHash) (hm : m.length = 32) (hm' : m'.length = 32)
    (h : (Model.CubeHash.finalState m).Returns c) (h' : (Model.CubeHash.finalState m').Returns c) : m = m' := by
  obtain ⟨d, h1, e1⟩ := Proofs.CubeHash.finalState_ok hm
  obtain ⟨d', h2, e2⟩ := Proofs.CubeHash.finalState_ok hm'
  have hd := Res.pure_inj (h1.symm.trans h)
  have hd' := Res.pure_inj (h2.symm.trans h')
  exact Proofs.CubeHash.spec_finalState_inj hm hm' (by rw [← e1, ← e2, hd, hd'])

/-- The result is the first 32 bytes, little-endian, of that final state. -/
theorem C27_truncation (m : List U8) (c : Model.CubeHash.CubeHash) (h : (Model.CubeHash.finalState m).Returns c) :
    (Model.CubeHash.sum m).Returns (((vec c).toList.take 8).flatMap fun w => Spec.leBytes 4 w.toNat) := by
  unfold Model.CubeHash.sum
  rw [show Model.CubeHash.finalState m = pure c from h, pure_bind]
  refine congrArg pure ?_
  simp only [Proofs.Bytes.toLeBytes32_eq]
  rfl

example : ∃ c c', (Model.CubeHash.finalState (List.replicate 32 0)).Returns c ∧ (Model.CubeHash.finalState (List.replicate 32 1)).Returns c' ∧
    c ≠ c' := by
  obtain ⟨c, h, _⟩ := Proofs.CubeHash.finalState_ok (data := List.replicate 32 0) (by decide)
  obtain ⟨c', h', _⟩ := Proofs.CubeHash.finalState_ok (data := List.replicate 32 1) (by decide)
  refine ⟨c, c', h, h', fun e => ?_⟩
  have := C27_final_state_injective _ _ c (by decide) (by decide) h (e ▸ h')
  exact absurd this (by decide)

end Props

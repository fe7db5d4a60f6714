import Verif.Props.Target
import Verif.Props.Reasons
import Verif.Proofs.WhyTarget

/-! Property C63: the text of the source on a target whose `usize` has 32 bits. -/

namespace Props
open Rust Source
open Spec.Lyra2 (masked rev3Masked)
open Model.Chains (Digests)

/-- The widths of `usize` that are considered. -/
theorem width_of {u : Nat} (hu : u = 32 ∨ u = 64) : Width u := by
  rcases hu with rfl | rfl <;> infer_instance

theorem le_32 {n : Nat} (h : n < 2 ^ 31) : n ≤ Model.Target.isizeMax 32 := Nat.le_of_lt_succ h

/-- **C63** (i) Whether `usize` has 32 or 64 bits, running the text of `lyra2` or `lyra2mod` is running the model for that target: same
result, same panic, for all arguments and both build profiles. -/
theorem C63_lyra2 (u : Nat) (hu : u = 32 ∨ u = 64) (p : Profile) (ext : String → Option (List U8 → List U8)) (depth : Nat) (hd : 6 ≤ depth)
    (k T R C : U64) (pwd salt : List U8) (hp : pwd.length ≤ Model.Target.isizeMax u) (hs : salt.length ≤ Model.Target.isizeMax u) :
    call crate ext u p depth "lyra2::lyra2" [.u64 k, .bytes pwd, .bytes salt, .u64 T, .u64 R, .u64 C] =
        bytesOf (Model.Target.lyra2 u p k pwd salt T R C) ∧
      call crate ext u p depth "lyra2mod::lyra2mod" [.u64 k, .bytes pwd, .bytes salt, .u64 T, .u64 R, .u64 C] =
        bytesOf (Model.Target.lyra2mod u p k pwd salt T R C) := by
  have := width_of hu
  obtain ⟨d, rfl⟩ := Nat.exists_eq_add_of_le' hd
  exact ⟨call_lyra2 k pwd salt T R C hp hs, Source.Mod.call_lyra2mod k pwd salt T R C hp hs⟩

/-- **C63** (ii) The same for the other functions with one argument. -/
theorem C63_sums (u : Nat) (hu : u = 32 ∨ u = 64) (p : Profile) (ext : String → Option (List U8 → List U8)) (depth : Nat) (hd : 7 ≤ depth)
    (input : List U8) (h : input.length ≤ Model.Target.isizeMax u) :
    call crate ext u p depth "lyra2::sum" [.bytes input] = bytesOf (Model.Target.sum u p input) ∧
      call crate ext u p depth "lyra2mod::sum" [.bytes input] = bytesOf (Model.Target.modSum u p input) ∧
      call crate ext u p depth "cubehash::sum" [.bytes input] = bytesOf (Model.CubeHash.sum input) ∧
      call crate ext u p depth "bmw::sum" [.bytes input] = bytesOf (Model.Bmw.sum input) := by
  have := width_of hu
  obtain ⟨d, rfl⟩ := Nat.exists_eq_add_of_le' hd
  have hl : input.length < 2 ^ 64 := by
    refine lt_of_le_of_lt h ?_
    rcases hu with rfl | rfl <;> decide
  exact ⟨Source.call_sum input h, Source.Mod.call_sum input h, Source.Cube.call_sum (d := d + 4) input, Source.Bmw.call_sum (d := d + 4) input hl⟩

/-- **C63** (iii) The same for the four chains, whatever functions from bytes to slices the other crates provide. -/
theorem C63_chains (u : Nat) (hu : u = 32 ∨ u = 64) (p : Profile) (dg : Digests) (hs : Slices u dg) (depth : Nat) (hd : 8 ≤ depth)
    (input : List U8) :
    call crate (digests dg) u p depth "lyra2re::sum" [.bytes input] = bytesOf (Model.Target.lyra2re u p dg input) ∧
      call crate (digests dg) u p depth "lyra2rev2::sum" [.bytes input] = bytesOf (Model.Target.lyra2rev2 u p dg input) ∧
      call crate (digests dg) u p depth "lyra2rev3::sum" [.bytes input] = bytesOf (Model.Target.lyra2rev3 u p dg input) ∧
      call crate (digests dg) u p depth "lyra2z::sum" [.bytes input] = bytesOf (Model.Target.lyra2z u p dg input) := by
  have := width_of hu
  obtain ⟨d, rfl⟩ := Nat.exists_eq_add_of_le' hd
  exact ⟨Source.Chains.call_lyra2re (d := d + 1) dg hs input, Source.Chains.call_lyra2rev2 dg input,
    Source.Chains.call_lyra2rev3 dg hs input, Source.Chains.call_lyra2z (d := d + 1) dg hs input⟩

theorem bytesOf_returns_of {m : Res (List U8)} (h : ∃ v, (bytesOf m).Returns v) : ∃ xs, m.Returns xs := by
  obtain ⟨v, h⟩ := h
  obtain ⟨xs, -, h⟩ := bytesOf_returns_iff h
  exact ⟨xs, h⟩

/-- **C63** (iv) The text of `lyra2` and `lyra2mod` on a 32-bit target, for `n_rows < 2^63`, in both build profiles: a call returns exactly
under `Accepts32` and `KeyReturns32` and otherwise panics. No call runs forever, whatever its arguments. -/
theorem C63_domain (p : Profile) (ext : String → Option (List U8 → List U8)) (depth : Nat) (hd : 6 ≤ depth) (k T R C : U64)
    (pwd salt : List U8) (hp : pwd.length < 2 ^ 31) (hs : salt.length < 2 ^ 31) (name : String)
    (hn : name = "lyra2::lyra2" ∨ name = "lyra2mod::lyra2mod") :
    (R.toNat < 2 ^ 63 →
      ((∃ v, (call crate ext 32 p depth name [.u64 k, .bytes pwd, .bytes salt, .u64 T, .u64 R, .u64 C]).Returns v) ↔
        Accepts32 pwd.length salt.length T R C ∧ KeyReturns32 k) ∧
      (¬ (Accepts32 pwd.length salt.length T R C ∧ KeyReturns32 k) →
        (call crate ext 32 p depth name [.u64 k, .bytes pwd, .bytes salt, .u64 T, .u64 R, .u64 C]).Panics)) ∧
    ¬ (call crate ext 32 p depth name [.u64 k, .bytes pwd, .bytes salt, .u64 T, .u64 R, .u64 C]).Diverges := by
  obtain ⟨e1, e2⟩ := C63_lyra2 32 (.inl rfl) p ext depth hd k T R C pwd salt (le_32 hp) (le_32 hs)
  rcases hn with rfl | rfl
  · obtain ⟨h1, h2⟩ := C52_lyra2_domain p k T R C pwd salt
    rw [e1]
    exact ⟨fun hR => ⟨⟨fun h => (h1 hR).1.1 (bytesOf_returns_of h), fun h => ((h1 hR).1.2 h).imp' _ fun _ => bytesOf_returns⟩,
      fun h => bytesOf_panics ((h1 hR).2 h)⟩, fun h => h2 (bytesOf_diverges h)⟩
  · obtain ⟨h1, h2⟩ := C52_lyra2mod_domain p k T R C pwd salt
    rw [e2]
    exact ⟨fun hR => ⟨⟨fun h => (h1 hR).1.1 (bytesOf_returns_of h), fun h => ((h1 hR).1.2 h).imp' _ fun _ => bytesOf_returns⟩,
      fun h => bytesOf_panics ((h1 hR).2 h)⟩, fun h => h2 (bytesOf_diverges h)⟩

theorem accepts_of_32 {k T R C : U64} {a b : Nat} (hk : k.toNat ≤ 96) (h : Accepts32 a b T R C) : Accepts k a b T R C := by
  obtain ⟨h1, h2, h3, h4⟩ := h
  unfold Accepts isizeMax
  refine ⟨?_, ?_, ?_, ?_, ?_⟩ <;> omega

/-- **C63** (v) With a key of at most 96 bytes, such a call returns the value of the specification, in both build profiles, so the text
computes the same on 32-bit and 64-bit targets (C60). -/
theorem C63_result (p : Profile) (ext : String → Option (List U8 → List U8)) (depth : Nat) (hd : 6 ≤ depth) (k T R C : U64)
    (pwd salt : List U8) (hk : k.toNat ≤ 96) (h : Accepts32 pwd.length salt.length T R C) :
    (call crate ext 32 p depth "lyra2::lyra2" [.u64 k, .bytes pwd, .bytes salt, .u64 T, .u64 R, .u64 C]).Returns
        (.bytes (masked k.toNat pwd salt T.toNat R.toNat C.toNat)) ∧
      (call crate ext 32 p depth "lyra2mod::lyra2mod" [.u64 k, .bytes pwd, .bytes salt, .u64 T, .u64 R, .u64 C]).Returns
        (.bytes (rev3Masked k.toNat pwd salt T.toNat R.toNat C.toNat)) := by
  have hl : pwd.length + salt.length < 2 ^ 31 := by
    obtain ⟨-, -, h3, h4⟩ := h
    omega
  obtain ⟨e1, e2⟩ := C63_lyra2 32 (.inl rfl) p ext depth hd k T R C pwd salt (le_32 (by omega)) (le_32 (by omega))
  obtain ⟨⟨a, h1, h2⟩, b, h3, h4⟩ := C52_same_result p k T R C pwd salt hk h
  have ha := accepts_of_32 hk h
  have r1 := C06_lyra2_result p k T R C pwd salt ha
  have r2 := C20_lyra2mod_result p k T R C pwd salt ha
  rw [e1, e2]
  refine ⟨bytesOf_returns ?_, bytesOf_returns ?_⟩
  · rw [Res.pure_inj (h2.symm.trans r1)] at h1
    exact h1
  · rw [Res.pure_inj (h4.symm.trans r2)] at h3
    exact h3

/-- **C63** (vi) On a 32-bit target the text of `lyra2` and `lyra2mod` returns zeros, whatever the password and salt, for a key length
`k >= 2^63` whose lower 32 bits are below `2^31`. -/
theorem C63_zero_key (p : Profile) (ext : String → Option (List U8 → List U8)) (depth : Nat) (hd : 6 ≤ depth) (k T R C : U64)
    (pwd salt : List U8) (hk : 2 ^ 63 ≤ k.toNat) (hk' : k.toNat % 2 ^ 32 < 2 ^ 31) (h : Accepts32 pwd.length salt.length T R C) :
    (call crate ext 32 p depth "lyra2::lyra2" [.u64 k, .bytes pwd, .bytes salt, .u64 T, .u64 R, .u64 C]).Returns
        (.bytes (List.replicate (k.toNat % 2 ^ 32) 0)) ∧
      (call crate ext 32 p depth "lyra2mod::lyra2mod" [.u64 k, .bytes pwd, .bytes salt, .u64 T, .u64 R, .u64 C]).Returns
        (.bytes (List.replicate (k.toNat % 2 ^ 32) 0)) := by
  have hl : pwd.length + salt.length < 2 ^ 31 := by
    obtain ⟨-, -, h3, h4⟩ := h
    omega
  obtain ⟨e1, e2⟩ := C63_lyra2 32 (.inl rfl) p ext depth hd k T R C pwd salt (le_32 (by omega)) (le_32 (by omega))
  rw [e1, e2]
  obtain ⟨h1, h2⟩ := C53_zero_key p k T R C pwd salt hk hk' h
  exact ⟨bytesOf_returns h1, bytesOf_returns h2⟩

/-- **C63** (vii) On a 32-bit target, too, the text of the four chains returns, for every input, the value of the published composition. -/
theorem C63_chain_results (p : Profile) (dg : Digests) (hb : Bytes32 dg) (depth : Nat) (hd : 8 ≤ depth) (input : List U8) :
    (call crate (digests dg) 32 p depth "lyra2re::sum" [.bytes input]).Returns
        (.bytes (Spec.Chains.lyra2re dg.blake256 dg.keccak256 dg.skein512_256 dg.groestl256 input)) ∧
      (call crate (digests dg) 32 p depth "lyra2rev2::sum" [.bytes input]).Returns
        (.bytes (Spec.Chains.lyra2rev2 dg.blake256 dg.keccak256 dg.skein512_256 input)) ∧
      (call crate (digests dg) 32 p depth "lyra2rev3::sum" [.bytes input]).Returns (.bytes (Spec.Chains.lyra2rev3 dg.blake256 input)) ∧
      (call crate (digests dg) 32 p depth "lyra2z::sum" [.bytes input]).Returns (.bytes (Spec.Chains.lyra2z dg.blake256 input)) := by
  have hs : Slices 32 dg := ⟨fun x => by rw [hb.blake256]; decide, fun x => by rw [hb.keccak256]; decide⟩
  obtain ⟨e1, e2, e3, e4⟩ := C63_chains 32 (.inl rfl) p dg hs depth hd input
  obtain ⟨t1, t2, t3, t4⟩ := C54_chains p dg hb input
  rw [e1, e2, e3, e4, t1, t2, t3, t4]
  exact ⟨bytesOf_returns (C38_lyra2re p dg hb input), bytesOf_returns (C38_lyra2rev2 p dg hb input),
    bytesOf_returns (C38_lyra2rev3 p dg hb input), bytesOf_returns (C38_lyra2z p dg hb input)⟩

/-- **C63** (viii) On a 32-bit target, too, no call of a function of the crate gets stuck (C61). -/
theorem C63_never_stuck (p : Profile) (ext : String → Option (List U8 → List U8)) (depth : Nat) (hd : 7 ≤ depth) (k T R C : U64)
    (pwd salt input : List U8) (hp : pwd.length < 2 ^ 31) (hs : salt.length < 2 ^ 31) (hi : input.length < 2 ^ 31) :
    call crate ext 32 p depth "lyra2::lyra2" [.u64 k, .bytes pwd, .bytes salt, .u64 T, .u64 R, .u64 C] ≠ throw .stuck ∧
      call crate ext 32 p depth "lyra2mod::lyra2mod" [.u64 k, .bytes pwd, .bytes salt, .u64 T, .u64 R, .u64 C] ≠ throw .stuck ∧
      call crate ext 32 p depth "lyra2::sum" [.bytes input] ≠ throw .stuck ∧
      call crate ext 32 p depth "lyra2mod::sum" [.bytes input] ≠ throw .stuck ∧
      call crate ext 32 p depth "cubehash::sum" [.bytes input] ≠ throw .stuck ∧
      call crate ext 32 p depth "bmw::sum" [.bytes input] ≠ throw .stuck := by
  have hr : ¬ Reason p .stuck := by rintro (h | h | h) <;> simp at h
  obtain ⟨e1, e2⟩ := C63_lyra2 32 (.inl rfl) p ext depth (by omega) k T R C pwd salt (le_32 hp) (le_32 hs)
  obtain ⟨e3, e4, e5, e6⟩ := C63_sums 32 (.inl rfl) p ext depth hd input (le_32 hi)
  rw [e1, e2, e3, e4, e5, e6]
  have key : ∀ (f : Res (List U8)), (T.toNat < 1 ∨ R.toNat < 3 → f = throw .explicit) →
      (1 ≤ T.toNat → 3 ≤ R.toNat → Why p True f) → bytesOf f ≠ throw .stuck := by
    intro f h1 h2 h
    have h := bytesOf_throw h
    by_cases hd : T.toNat < 1 ∨ R.toNat < 3
    · rw [h1 hd, Res.throw_eq, Res.throw_eq] at h
      cases h
    · exact hr (reason_of_why (h2 (by omega) (by omega)) h)
  refine ⟨key _ ?_ (Model.Target.why_lyra2 32 p k pwd salt T R C), key _ ?_ (Model.Target.why_lyra2mod 32 p k pwd salt T R C), fun h => ?_,
    fun h => ?_, fun h => ?_, fun h => ?_⟩
  · intro h
    unfold Model.Target.lyra2
    by_cases hT : T.toNat < 1
    · rw [if_pos hT]; rfl
    · rw [if_neg hT, if_pos (h.resolve_left hT)]; rfl
  · intro h
    unfold Model.Target.lyra2mod
    by_cases hT : T.toNat < 1
    · rw [if_pos hT]; rfl
    · rw [if_neg hT, if_pos (h.resolve_left hT)]; rfl
  · exact hr (reason_of_why (Model.Target.why_sum 32 p input) (bytesOf_throw h))
  · exact hr (reason_of_why (Model.Target.why_modSum 32 p input) (bytesOf_throw h))
  · exact hr (reason_of_why (Model.CubeHash.why_sum p (cap := True) input) (bytesOf_throw h))
  · exact hr (reason_of_why (Model.Bmw.why_sum p (cap := True) input) (bytesOf_throw h))

/-- **C63** (ix) The same for the chains. -/
theorem C63_never_stuck_chains (p : Profile) (dg : Digests) (hs : Slices 32 dg) (depth : Nat) (hd : 8 ≤ depth) (input : List U8) :
    call crate (digests dg) 32 p depth "lyra2re::sum" [.bytes input] ≠ throw .stuck ∧
      call crate (digests dg) 32 p depth "lyra2rev2::sum" [.bytes input] ≠ throw .stuck ∧
      call crate (digests dg) 32 p depth "lyra2rev3::sum" [.bytes input] ≠ throw .stuck ∧
      call crate (digests dg) 32 p depth "lyra2z::sum" [.bytes input] ≠ throw .stuck := by
  have hr : ¬ Reason p .stuck := by rintro (h | h | h) <;> simp at h
  obtain ⟨e1, e2, e3, e4⟩ := C63_chains 32 (.inl rfl) p dg hs depth hd input
  rw [e1, e2, e3, e4]
  exact ⟨fun h => hr (reason_of_why (Model.Target.why_lyra2re 32 p dg input) (bytesOf_throw h)),
    fun h => hr (reason_of_why (Model.Target.why_lyra2rev2 32 p dg input) (bytesOf_throw h)),
    fun h => hr (reason_of_why (Model.Target.why_lyra2rev3 32 p dg input) (bytesOf_throw h)),
    fun h => hr (reason_of_why (Model.Target.why_lyra2z 32 p dg input) (bytesOf_throw h))⟩

/-- An accepted call, the call whose number of rows is 0 modulo `2^32`, and a key of zeros. -/
example : (call crate (fun _ => none) 32 .release 6 "lyra2::lyra2" [.u64 24, .bytes [1, 2, 3], .bytes [4, 5], .u64 3, .u64 5, .u64 2]).Returns
      (.bytes (masked 24 [1, 2, 3] [4, 5] 3 5 2)) ∧
    (call crate (fun _ => none) 32 .release 6 "lyra2::lyra2" [.u64 32, .bytes [], .bytes [], .u64 1, .u64 (BitVec.ofNat 64 (2 ^ 32)), .u64 1]).Panics ∧
    (call crate (fun _ => none) 32 .debug 6 "lyra2::lyra2"
      [.u64 (BitVec.ofNat 64 (2 ^ 63 + 4)), .bytes [1, 2, 3], .bytes [4], .u64 1, .u64 8, .u64 8]).Returns (.bytes [0, 0, 0, 0]) :=
  ⟨(C63_result .release (fun _ => none) 6 (le_refl _) 24 3 5 2 [1, 2, 3] [4, 5] (by decide) ⟨by decide, by decide, by decide, by decide⟩).1,
    ((C63_domain .release (fun _ => none) 6 (le_refl _) 32 1 (BitVec.ofNat 64 (2 ^ 32)) 1 [] [] (by decide) (by decide) _ (.inl rfl)).1
      (by decide)).2 fun h => absurd h.1.2.2.1 (by decide),
    (C63_zero_key .debug (fun _ => none) 6 (le_refl _) (BitVec.ofNat 64 (2 ^ 63 + 4)) 1 8 8 [1, 2, 3] [4] (by decide) (by decide)
      ⟨by decide, by decide, by decide, by decide⟩).1⟩

/-- The hypothesis on the digests is met. -/
example : Slices 32 ⟨fun x => x.take 32, fun x => x.take 64, id, id⟩ :=
  ⟨fun x => by have : (x.take 32).length ≤ 32 := by simp
               exact le_trans this (by decide),
   fun x => by have : (x.take 64).length ≤ 64 := by simp
               exact le_trans this (by decide)⟩

end Props

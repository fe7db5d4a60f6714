import Verif.Props.Source32
import Verif.Props.SourceLog
import Verif.Proofs.LogTarget32

/-! Property C64 on targets whose `usize` has 32 bits. -/

namespace Props
open Rust Rust.Res Source Spec Spec.Lyra2 Proofs.LogTarget
open Model.Chains (Digests)

/-- **C64** (vii) Whether `usize` has 32 or 64 bits, what the text of `lyra2` or `lyra2mod` does to the memory matrix and the sponge is what
the model with a log for that target does, for all arguments, accepted or not, and both profiles. -/
theorem C64_lyra2_target (u : Nat) (hu : u = 32 ∨ u = 64) (p : Profile) (ext : String → Option (List U8 → List U8)) (depth : Nat) (hd : 6 ≤ depth)
    (k T R C : U64) (pwd salt : List U8) (hp : pwd.length ≤ Model.Target.isizeMax u) (hs : salt.length ≤ Model.Target.isizeMax u)
    (log : List Event) :
    callL seen crate ext u p depth "lyra2::lyra2" [.u64 k, .bytes pwd, .bytes salt, .u64 T, .u64 R, .u64 C] log =
        bytesLogOf (Model.LogTarget.lyra2 u p k pwd salt T R C log) ∧
      callL seen crate ext u p depth "lyra2mod::lyra2mod" [.u64 k, .bytes pwd, .bytes salt, .u64 T, .u64 R, .u64 C] log =
        bytesLogOf (Model.LogTarget.lyra2mod u p k pwd salt T R C log) := by
  have := width_of hu
  obtain ⟨d, rfl⟩ := Nat.exists_eq_add_of_le' hd
  exact ⟨bytesLogOf_eq (callL_lyra2 (u := u) (p := p) (ext := ext) (d := d) k pwd salt T R C hp hs) log,
    bytesLogOf_eq (Source.Mod.callL_lyra2mod (u := u) (p := p) (ext := ext) (d := d) k pwd salt T R C hp hs) log⟩

/-- **C64** (vii) The same for the four chains. -/
theorem C64_chains_target (u : Nat) (hu : u = 32 ∨ u = 64) (p : Profile) (dg : Digests) (hs : Slices u dg) (depth : Nat) (hd : 8 ≤ depth)
    (input : List U8) (log : List Event) :
    callL seen crate (digests dg) u p depth "lyra2re::sum" [.bytes input] log = bytesLogOf (Model.LogTarget.lyra2re u p dg input log) ∧
      callL seen crate (digests dg) u p depth "lyra2rev2::sum" [.bytes input] log = bytesLogOf (Model.LogTarget.lyra2rev2 u p dg input log) ∧
      callL seen crate (digests dg) u p depth "lyra2rev3::sum" [.bytes input] log = bytesLogOf (Model.LogTarget.lyra2rev3 u p dg input log) ∧
      callL seen crate (digests dg) u p depth "lyra2z::sum" [.bytes input] log = bytesLogOf (Model.LogTarget.lyra2z u p dg input log) := by
  have := width_of hu
  obtain ⟨d, rfl⟩ := Nat.exists_eq_add_of_le' hd
  exact ⟨bytesLogOf_eq (Source.Chains.callL_lyra2re (u := u) (p := p) (d := d + 1) dg hs input) log,
    bytesLogOf_eq (Source.Chains.callL_lyra2rev2 (u := u) (p := p) (d := d) dg input) log,
    bytesLogOf_eq (Source.Chains.callL_lyra2rev3 (u := u) (p := p) (d := d) dg hs input) log,
    bytesLogOf_eq (Source.Chains.callL_lyra2z (u := u) (p := p) (d := d + 1) dg hs input) log⟩

theorem Accepts32.lengths {T R C : U64} {a b : Nat} (h : Accepts32 a b T R C) : a < 2 ^ 31 ∧ b < 2 ^ 31 := by
  obtain ⟨-, -, h3, h4⟩ := h
  constructor <;> omega

theorem le_64 {n : Nat} (h : n < 2 ^ 31) : n ≤ isizeMax := by unfold isizeMax; omega

/-- **C64** (viii) A call that a 32-bit target accepts (C52), with a key of at most 96 bytes, does on a 32-bit target exactly what it does on a
64-bit target: same key, same accesses at the same positions, same sponge transformations, in the same order. -/
theorem C64_same_on_32 (p : Profile) (ext : String → Option (List U8 → List U8)) (depth : Nat) (hd : 6 ≤ depth) (k T R C : U64)
    (pwd salt : List U8) (hk : k.toNat ≤ 96) (h : Accepts32 pwd.length salt.length T R C) (f : String)
    (hf : f = "lyra2::lyra2" ∨ f = "lyra2mod::lyra2mod") :
    callL seen crate ext 32 p depth f [.u64 k, .bytes pwd, .bytes salt, .u64 T, .u64 R, .u64 C] [] =
      callL seen crate ext 64 p depth f [.u64 k, .bytes pwd, .bytes salt, .u64 T, .u64 R, .u64 C] [] := by
  have hl := h.lengths
  have ha := accepts_of_32 hk h
  have e32 := C64_lyra2_target 32 (.inl rfl) p ext depth hd k T R C pwd salt (le_32 hl.1) (le_32 hl.2) []
  have e64 := C64_lyra2 p ext depth hd k T R C pwd salt (le_64 hl.1) (le_64 hl.2) []
  rcases hf with rfl | rfl
  · obtain ⟨out, stars, -, h2, -⟩ := C55_access_pattern p k T R C pwd salt ha
    rw [e32.1, e64.1, (lyra2_ref p k T R C pwd salt (domain32_iff.2 h) hk).returns h2, show Model.Log.lyra2 p k pwd salt T R C [] = _ from h2]
  · obtain ⟨out, stars, -, h2, -⟩ := C55_access_pattern_mod p k T R C pwd salt ha
    rw [e32.2, e64.2, (lyra2mod_ref p k T R C pwd salt (domain32_iff.2 h) hk).returns h2, show Model.Log.lyra2mod p k pwd salt T R C [] = _ from h2]

/-- **C64** (ix) On a 32-bit target: what an accepted call of the text of `lyra2` does to its memory is the pattern of C55, along with the
result. -/
theorem C64_access_pattern32 (p : Profile) (ext : String → Option (List U8 → List U8)) (depth : Nat) (hd : 6 ≤ depth) (k T R C : U64)
    (pwd salt : List U8) (hk : k.toNat ≤ 96) (h : Accepts32 pwd.length salt.length T R C) :
    ∃ stars, (callL seen crate ext 32 p depth "lyra2::lyra2" [.u64 k, .bytes pwd, .bytes salt, .u64 T, .u64 R, .u64 C] []).Returns
        (.bytes (masked k.toNat pwd salt T.toNat R.toNat C.toNat),
          Access.call k.toNat pwd.length salt.length T.toNat R.toNat C.toNat stars) ∧
      stars = Access.stars (Pick.mask R.toNat) C.toNat
        (Access.afterSetup (crateWords k.toNat pwd salt T.toNat R.toNat C.toNat) R.toNat C.toNat) (Access.rows R.toNat T.toNat) ∧
      stars.length = (Access.rows R.toNat T.toNat).length ∧ ∀ r ∈ stars, r < R.toNat := by
  rw [C64_same_on_32 p ext depth hd k T R C pwd salt hk h _ (.inl rfl)]
  exact C64_access_pattern p ext depth hd k T R C pwd salt (accepts_of_32 hk h)

/-- **C64** (ix) The same for `lyra2mod`. -/
theorem C64_access_pattern_mod32 (p : Profile) (ext : String → Option (List U8 → List U8)) (depth : Nat) (hd : 6 ≤ depth) (k T R C : U64)
    (pwd salt : List U8) (hk : k.toNat ≤ 96) (h : Accepts32 pwd.length salt.length T R C) :
    ∃ choices, (callL seen crate ext 32 p depth "lyra2mod::lyra2mod" [.u64 k, .bytes pwd, .bytes salt, .u64 T, .u64 R, .u64 C] []).Returns
        (.bytes (rev3Masked k.toNat pwd salt T.toNat R.toNat C.toNat),
          Access.callRev3 k.toNat pwd.length salt.length T.toNat R.toNat C.toNat choices) ∧
      choices = Access.choices R.toNat C.toNat
        (Access.afterSetup (crateWords k.toNat pwd salt T.toNat R.toNat C.toNat) R.toNat C.toNat) (Access.rows R.toNat T.toNat) ∧
      choices.length = (Access.rows R.toNat T.toNat).length ∧ ∀ c ∈ choices, c.1 < 16 ∧ c.2.1 < 16 ∧ c.2.2 < R.toNat := by
  rw [C64_same_on_32 p ext depth hd k T R C pwd salt hk h _ (.inr rfl)]
  exact C64_access_pattern_mod p ext depth hd k T R C pwd salt (accepts_of_32 hk h)

/-- **C64** (x) On a 32-bit target: an accepted call of the text stays inside the matrix and the state, and costs what C56 says. -/
theorem C64_cost32 (p : Profile) (ext : String → Option (List U8 → List U8)) (depth : Nat) (hd : 6 ≤ depth) (k T R C : U64)
    (pwd salt : List U8) (hk : k.toNat ≤ 96) (h : Accepts32 pwd.length salt.length T R C) (f : String)
    (hf : f = "lyra2::lyra2" ∨ f = "lyra2mod::lyra2mod") :
    ∃ out log,
      (callL seen crate ext 32 p depth f [.u64 k, .bytes pwd, .bytes salt, .u64 T, .u64 R, .u64 C] []).Returns (.bytes out, log) ∧
      (∀ e ∈ log, e.Within (12 * (R.toNat * C.toNat))) ∧
      Cost log k.toNat pwd.length salt.length R.toNat C.toNat (schedule (Order.mask R.toNat) T.toNat).length := by
  rw [C64_same_on_32 p ext depth hd k T R C pwd salt hk h f hf]
  exact C64_cost p ext depth hd k T R C pwd salt (accepts_of_32 hk h) f hf

theorem lyra2_ref32 (p : Profile) (T R C : U64) (x : List U8) (hx : x.length = 32) (h : Accepts32 32 32 T R C) :
    RefL (Model.Log.lyra2 p 32 x x T R C) (Model.LogTarget.lyra2 32 p 32 x x T R C) (fun a b => a = b) :=
  lyra2_ref p 32 T R C x x (domain32_iff.2 (by rw [hx]; exact h)) (by decide)

theorem lyra2mod_ref32 (p : Profile) (T R C : U64) (x : List U8) (hx : x.length = 32) (h : Accepts32 32 32 T R C) :
    RefL (Model.Log.lyra2mod p 32 x x T R C) (Model.LogTarget.lyra2mod 32 p 32 x x T R C) (fun a b => a = b) :=
  lyra2mod_ref p 32 T R C x x (domain32_iff.2 (by rw [hx]; exact h)) (by decide)

theorem cube_ref (y : List U8) (hy : y.length = 32) :
    RefL (Model.Log.quiet (ε := Event) (Model.CubeHash.sum y)) (Model.Log.quiet (Model.CubeHash.sum y)) (fun a b => a = b ∧ a.length = 32) := by
  refine .quiet fun a ha => ?_
  obtain ⟨out, h1, h2⟩ := (C24_domain y).2 (by omega)
  have := Res.pure_inj (ha.symm.trans h1)
  subst this
  exact ⟨a, ha, rfl, h2⟩

theorem chains_ref32 (p : Profile) (dg : Digests) (hb : Bytes32 dg) (input : List U8) :
    RefL (Model.Log.Chains.lyra2re p dg input) (Model.LogTarget.lyra2re 32 p dg input) (fun a b => a = b) ∧
    RefL (Model.Log.Chains.lyra2rev2 p dg input) (Model.LogTarget.lyra2rev2 32 p dg input) (fun a b => a = b) ∧
    RefL (Model.Log.Chains.lyra2rev3 p dg input) (Model.LogTarget.lyra2rev3 32 p dg input) (fun a b => a = b) ∧
    RefL (Model.Log.Chains.lyra2z p dg input) (Model.LogTarget.lyra2z 32 p dg input) (fun a b => a = b) := by
  have h4 : Accepts32 32 32 1 4 4 := ⟨by decide, by decide, by decide, by decide⟩
  refine ⟨?_, ?_, ?_, ?_⟩
  · refine RefL.bind (lyra2_ref32 p 1 8 8 _ (hb.keccak256 _) ⟨by decide, by decide, by decide, by decide⟩) fun a _ h => ?_
    subst h
    exact .refl _
  · refine RefL.bind (cube_ref _ (hb.keccak256 _)) fun c _ h => ?_
    obtain ⟨rfl, hc⟩ := h
    refine RefL.bind (lyra2_ref32 p 1 4 4 c hc h4) fun a _ h => ?_
    subst h
    exact .refl _
  · have hl : RefL (Model.Log.lyra2mod p 32 (dg.blake256 input) (dg.blake256 input) 1 4 4)
        (Model.LogTarget.lyra2mod 32 p 32 (dg.blake256 input) (dg.blake256 input) 1 4 4) (fun a b => a = b ∧ a.length = 32) := by
      intro log x hx
      obtain ⟨y, hy, h1, h2⟩ := lyra2mod_ref32 p 1 4 4 _ (hb.blake256 input) h4 log x hx
      refine ⟨y, hy, ⟨h1, ?_⟩, h2⟩
      obtain ⟨a, e, hl⟩ := (C44_sum_domain p (dg.blake256 input)).1 (by rw [hb.blake256]; decide)
      have e' := Proofs.Log.lyra2mod_erases p 32 (dg.blake256 input) (dg.blake256 input) 1 4 4 log
      rw [hx, pure_bind] at e'
      unfold Returns Model.Lyra2mod.sum at e
      rw [Res.pure_inj (e'.trans e)]
      exact hl
    refine RefL.bind hl fun a _ h => ?_
    obtain ⟨rfl, ha⟩ := h
    refine RefL.bind (cube_ref _ ha) fun c _ h => ?_
    obtain ⟨rfl, hc⟩ := h
    refine RefL.bind (lyra2mod_ref32 p 1 4 4 c hc h4) fun b _ h => ?_
    subst h
    exact .refl _
  · exact lyra2_ref32 p 8 8 8 _ (hb.blake256 _) ⟨by decide, by decide, by decide, by decide⟩

/-- **C64** (xi) On a 32-bit target, too, the text of the chains returns the published composition and does the same work for every input. -/
theorem C64_chains_cost32 (p : Profile) (dg : Digests) (hb : Bytes32 dg) (depth : Nat) (hd : 8 ≤ depth) (input : List U8) :
    (∃ log, (callL seen crate (digests dg) 32 p depth "lyra2re::sum" [.bytes input] []).Returns
        (.bytes (Spec.Chains.lyra2re dg.blake256 dg.keccak256 dg.skein512_256 dg.groestl256 input), log) ∧ ChainCost log 128 4 5569 2896 0 768) ∧
    (∃ log, (callL seen crate (digests dg) 32 p depth "lyra2rev2::sum" [.bytes input] []).Returns
        (.bytes (Spec.Chains.lyra2rev2 dg.blake256 dg.keccak256 dg.skein512_256 input), log) ∧ ChainCost log 32 4 1249 688 0 192) ∧
    (∃ log, (callL seen crate (digests dg) 32 p depth "lyra2rev3::sum" [.bytes input] []).Returns
        (.bytes (Spec.Chains.lyra2rev3 dg.blake256 input), log) ∧ ChainCost log 64 8 2498 1376 16 192) ∧
    (∃ log, (callL seen crate (digests dg) 32 p depth "lyra2z::sum" [.bytes input] []).Returns
        (.bytes (Spec.Chains.lyra2z dg.blake256 input), log) ∧ ChainCost log 576 4 27073 13648 0 768) := by
  have hs : Slices 32 dg := ⟨fun x => by rw [hb.blake256]; decide, fun x => by rw [hb.keccak256]; decide⟩
  obtain ⟨e1, e2, e3, e4⟩ := C64_chains_target 32 (.inl rfl) p dg hs depth hd input []
  obtain ⟨⟨l1, a1, c1⟩, ⟨l2, a2, c2⟩, ⟨l3, a3, c3⟩, ⟨l4, a4, c4⟩⟩ := C62_cost p dg hb input
  obtain ⟨r1, r2, r3, r4⟩ := chains_ref32 p dg hb input
  rw [e1, e2, e3, e4]
  exact ⟨⟨l1, bytesLogOf_returns (r1.returns a1), c1⟩, ⟨l2, bytesLogOf_returns (r2.returns a2), c2⟩,
    ⟨l3, bytesLogOf_returns (r3.returns a3), c3⟩, ⟨l4, bytesLogOf_returns (r4.returns a4), c4⟩⟩

/-- The parameters of Lyra2REv2 on a 32-bit target, with the same log as on a 64-bit one. -/
example (p : Profile) (pwd : List U8) (hp : pwd.length = 32) : ∃ out log,
    (callL seen crate (fun _ => none) 32 p 6 "lyra2::lyra2" [.u64 32, .bytes pwd, .bytes pwd, .u64 1, .u64 4, .u64 4] []).Returns
      (.bytes out, log) ∧
    (callL seen crate (fun _ => none) 64 p 6 "lyra2::lyra2" [.u64 32, .bytes pwd, .bytes pwd, .u64 1, .u64 4, .u64 4] []).Returns
      (.bytes out, log) ∧ Event.count .round log = 32 := by
  have h : Accepts32 pwd.length pwd.length 1 4 4 := by rw [hp]; unfold Accepts32; decide
  obtain ⟨out, log, h1, -, h2⟩ := C64_cost32 p (fun _ => none) 6 (le_refl _) 32 1 4 4 pwd pwd (by decide) h _ (.inl rfl)
  refine ⟨out, log, h1, ?_, ?_⟩
  · rw [← C64_same_on_32 p (fun _ => none) 6 (le_refl _) 32 1 4 4 pwd pwd (by decide) h _ (.inl rfl)]
    exact h1
  · rw [h2.rounds]
    decide +kernel

/-- The text of the published Lyra2REv3 on the empty input and a 32-bit target. -/
example (p : Profile) : ∃ log, (callL seen crate (digests published) 32 p 8 "lyra2rev3::sum" [.bytes []] []).Returns
    (.bytes (Spec.Chains.lyra2rev3 published.blake256 []), log) ∧ ChainCost log 64 8 2498 1376 16 192 :=
  (C64_chains_cost32 p published C41_bytes32 8 (le_refl _) []).2.2.1

end Props

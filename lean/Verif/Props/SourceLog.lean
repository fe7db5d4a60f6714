import Verif.Props.ChainAccess
import Verif.Props.Source
import Verif.Proofs.SrcLogChains
import Verif.Proofs.SrcLogErase
import Verif.Proofs.LogTarget64

/-! Property C64: what a run of the source text touches. `Source.callL` is the meaning of a call with notes of what is accessed
(`Source/Log.lean`), `Source.seen` keeps of the notes the accesses to the memory matrix and the sponge transformations. -/

namespace Props
open Rust Rust.Res Source Spec Spec.Lyra2
open Model.Chains (Digests)

/-- The outcome and the log of a call whose result is a sequence of bytes. -/
def bytesLogOf {ε : Type} (m : Res (List U8 × List ε)) : Res (Val × List ε) := m >>= fun x => pure (.bytes x.1, x.2)

theorem bytesLogOf_returns {ε : Type} {m : Res (List U8 × List ε)} {xs : List U8} {log : List ε} (h : m.Returns (xs, log)) :
    (bytesLogOf m).Returns (.bytes xs, log) := by
  unfold Res.Returns at *
  rw [h]; rfl

theorem bytesLogOf_eq {ε : Type} {l : Model.Log.LoggedOf ε Val} {m : Model.Log.LoggedOf ε (List U8)} (h : l = m >>= fun xs => pure (.bytes xs))
    (log : List ε) : l log = bytesLogOf (m log) := by
  rw [h]; rfl

theorem Accepts.lengths {k T R C : U64} {a b : Nat} (h : Accepts k a b T R C) : a ≤ isizeMax ∧ b ≤ isizeMax := by
  obtain ⟨-, -, -, h4, h5⟩ := h
  constructor <;> omega

/-- **C64** (0) The notes are an observation only: whatever is noted of them, whatever the log contains, and for any functions and
arguments, the run with notes returns, panics or runs forever as the run without, with the same result and the same panic. -/
theorem C64_same_outcome {ε : Type} (obs : Access → List ε) (fns : List Fn) (ext : String → Option (List U8 → List U8)) (u : Nat) (p : Profile)
    (depth : Nat) (name : String) (args : List Val) (log : List ε) :
    (callL obs fns ext u p depth name args log >>= fun x => pure x.1) = call fns ext u p depth name args :=
  callL_erases obs fns ext u p depth name args log

/-- **C64** (i) What the text of `lyra2` or `lyra2mod` does to the memory matrix and the sponge is what the model with the log of C55
does, for all arguments, accepted or not, and both profiles. -/
theorem C64_lyra2 (p : Profile) (ext : String → Option (List U8 → List U8)) (depth : Nat) (hd : 6 ≤ depth) (k T R C : U64) (pwd salt : List U8)
    (hp : pwd.length ≤ isizeMax) (hs : salt.length ≤ isizeMax) (log : List Event) :
    callL seen crate ext 64 p depth "lyra2::lyra2" [.u64 k, .bytes pwd, .bytes salt, .u64 T, .u64 R, .u64 C] log =
        bytesLogOf (Model.Log.lyra2 p k pwd salt T R C log) ∧
      callL seen crate ext 64 p depth "lyra2mod::lyra2mod" [.u64 k, .bytes pwd, .bytes salt, .u64 T, .u64 R, .u64 C] log =
        bytesLogOf (Model.Log.lyra2mod p k pwd salt T R C log) := by
  obtain ⟨d, rfl⟩ := Nat.exists_eq_add_of_le' hd
  rw [← Proofs.LogTarget.lyra2_64, ← Proofs.LogTarget.lyra2mod_64]
  exact ⟨bytesLogOf_eq (callL_lyra2 (u := 64) (p := p) (ext := ext) (d := d) k pwd salt T R C hp hs) log,
    bytesLogOf_eq (Source.Mod.callL_lyra2mod (u := 64) (p := p) (ext := ext) (d := d) k pwd salt T R C hp hs) log⟩

/-- **C64** (ii) The same for the four chains, whatever functions from bytes to slices the other crates provide. -/
theorem C64_chains (p : Profile) (dg : Digests) (hs : Slices 64 dg) (depth : Nat) (hd : 8 ≤ depth) (input : List U8) (log : List Event) :
    callL seen crate (digests dg) 64 p depth "lyra2re::sum" [.bytes input] log = bytesLogOf (Model.Log.Chains.lyra2re p dg input log) ∧
      callL seen crate (digests dg) 64 p depth "lyra2rev2::sum" [.bytes input] log = bytesLogOf (Model.Log.Chains.lyra2rev2 p dg input log) ∧
      callL seen crate (digests dg) 64 p depth "lyra2rev3::sum" [.bytes input] log = bytesLogOf (Model.Log.Chains.lyra2rev3 p dg input log) ∧
      callL seen crate (digests dg) 64 p depth "lyra2z::sum" [.bytes input] log = bytesLogOf (Model.Log.Chains.lyra2z p dg input log) := by
  obtain ⟨d, rfl⟩ := Nat.exists_eq_add_of_le' hd
  rw [← Proofs.LogTarget.lyra2re_64, ← Proofs.LogTarget.lyra2rev2_64, ← Proofs.LogTarget.lyra2rev3_64, ← Proofs.LogTarget.lyra2z_64]
  exact ⟨bytesLogOf_eq (Source.Chains.callL_lyra2re (u := 64) (p := p) (d := d + 1) dg hs input) log,
    bytesLogOf_eq (Source.Chains.callL_lyra2rev2 (u := 64) (p := p) (d := d) dg input) log,
    bytesLogOf_eq (Source.Chains.callL_lyra2rev3 (u := 64) (p := p) (d := d) dg hs input) log,
    bytesLogOf_eq (Source.Chains.callL_lyra2z (u := 64) (p := p) (d := d + 1) dg hs input) log⟩

/-- **C64** (iii) What an accepted call of the text of `lyra2` does to its memory: the pattern of C55, along with the result. -/
theorem C64_access_pattern (p : Profile) (ext : String → Option (List U8 → List U8)) (depth : Nat) (hd : 6 ≤ depth) (k T R C : U64)
    (pwd salt : List U8) (h : Accepts k pwd.length salt.length T R C) :
    ∃ stars, (callL seen crate ext 64 p depth "lyra2::lyra2" [.u64 k, .bytes pwd, .bytes salt, .u64 T, .u64 R, .u64 C] []).Returns
        (.bytes (masked k.toNat pwd salt T.toNat R.toNat C.toNat),
          Access.call k.toNat pwd.length salt.length T.toNat R.toNat C.toNat stars) ∧
      stars = Access.stars (Pick.mask R.toNat) C.toNat
        (Access.afterSetup (crateWords k.toNat pwd salt T.toNat R.toNat C.toNat) R.toNat C.toNat) (Access.rows R.toNat T.toNat) ∧
      stars.length = (Access.rows R.toNat T.toNat).length ∧ ∀ r ∈ stars, r < R.toNat := by
  obtain ⟨out, stars, h1, h2, h3⟩ := C55_access_pattern p k T R C pwd salt h
  have : out = masked k.toNat pwd salt T.toNat R.toNat C.toNat := by
    have h' := C06_lyra2_result p k T R C pwd salt h
    unfold Res.Returns at h1 h'
    exact Res.pure_inj (h1.symm.trans h')
  subst this
  refine ⟨stars, ?_, h3⟩
  rw [(C64_lyra2 p ext depth hd k T R C pwd salt h.lengths.1 h.lengths.2 []).1]
  exact bytesLogOf_returns h2

/-- **C64** (iii) The same for `lyra2mod`. -/
theorem C64_access_pattern_mod (p : Profile) (ext : String → Option (List U8 → List U8)) (depth : Nat) (hd : 6 ≤ depth) (k T R C : U64)
    (pwd salt : List U8) (h : Accepts k pwd.length salt.length T R C) :
    ∃ choices, (callL seen crate ext 64 p depth "lyra2mod::lyra2mod" [.u64 k, .bytes pwd, .bytes salt, .u64 T, .u64 R, .u64 C] []).Returns
        (.bytes (rev3Masked k.toNat pwd salt T.toNat R.toNat C.toNat),
          Access.callRev3 k.toNat pwd.length salt.length T.toNat R.toNat C.toNat choices) ∧
      choices = Access.choices R.toNat C.toNat
        (Access.afterSetup (crateWords k.toNat pwd salt T.toNat R.toNat C.toNat) R.toNat C.toNat) (Access.rows R.toNat T.toNat) ∧
      choices.length = (Access.rows R.toNat T.toNat).length ∧ ∀ c ∈ choices, c.1 < 16 ∧ c.2.1 < 16 ∧ c.2.2 < R.toNat := by
  obtain ⟨out, choices, h1, h2, h3⟩ := C55_access_pattern_mod p k T R C pwd salt h
  have : out = rev3Masked k.toNat pwd salt T.toNat R.toNat C.toNat := by
    have h' := C20_lyra2mod_result p k T R C pwd salt h
    unfold Res.Returns at h1 h'
    exact Res.pure_inj (h1.symm.trans h')
  subst this
  refine ⟨choices, ?_, h3⟩
  rw [(C64_lyra2 p ext depth hd k T R C pwd salt h.lengths.1 h.lengths.2 []).2]
  exact bytesLogOf_returns h2

/-- **C64** (iv) Two accepted calls of the text with the same parameters and lengths do the same up to the wandering phase, and
operations of the same kinds in the same order to the end. -/
theorem C64_public_part (p : Profile) (ext : String → Option (List U8 → List U8)) (depth : Nat) (hd : 6 ≤ depth) (k T R C : U64)
    (pwd salt pwd' salt' : List U8) (h : Accepts k pwd.length salt.length T R C) (hp : pwd'.length = pwd.length)
    (hs : salt'.length = salt.length) (f : String) (hf : f = "lyra2::lyra2" ∨ f = "lyra2mod::lyra2mod") :
    ∃ out out' pre log log',
      (callL seen crate ext 64 p depth f [.u64 k, .bytes pwd, .bytes salt, .u64 T, .u64 R, .u64 C] []).Returns (.bytes out, pre ++ log) ∧
      (callL seen crate ext 64 p depth f [.u64 k, .bytes pwd', .bytes salt', .u64 T, .u64 R, .u64 C] []).Returns (.bytes out', pre ++ log') ∧
      log.map Event.kind = log'.map Event.kind ∧ pre = Access.beforeWander pwd.length salt.length R.toNat C.toNat := by
  have e := C64_lyra2 p ext depth hd k T R C pwd salt h.lengths.1 h.lengths.2 []
  have e' := C64_lyra2 p ext depth hd k T R C pwd' salt' (hp ▸ h.lengths.1) (hs ▸ h.lengths.2) []
  rcases hf with rfl | rfl
  · obtain ⟨out, out', pre, log, log', h1, h2, h3⟩ := C55_public_part p k T R C pwd salt pwd' salt' h hp hs
    rw [e.1, e'.1]
    exact ⟨out, out', pre, log, log', bytesLogOf_returns h1, bytesLogOf_returns h2, h3⟩
  · obtain ⟨out, out', pre, log, log', h1, h2, h3⟩ := C55_public_part_mod p k T R C pwd salt pwd' salt' h hp hs
    rw [e.2, e'.2]
    exact ⟨out, out', pre, log, log', bytesLogOf_returns h1, bytesLogOf_returns h2, h3⟩

/-- **C64** (v) An accepted call of the text stays inside the matrix and the state, and costs what C56 says. -/
theorem C64_cost (p : Profile) (ext : String → Option (List U8 → List U8)) (depth : Nat) (hd : 6 ≤ depth) (k T R C : U64)
    (pwd salt : List U8) (h : Accepts k pwd.length salt.length T R C) (f : String) (hf : f = "lyra2::lyra2" ∨ f = "lyra2mod::lyra2mod") :
    ∃ out log,
      (callL seen crate ext 64 p depth f [.u64 k, .bytes pwd, .bytes salt, .u64 T, .u64 R, .u64 C] []).Returns (.bytes out, log) ∧
      (∀ e ∈ log, e.Within (12 * (R.toNat * C.toNat))) ∧
      Cost log k.toNat pwd.length salt.length R.toNat C.toNat (schedule (Order.mask R.toNat) T.toNat).length := by
  have e := C64_lyra2 p ext depth hd k T R C pwd salt h.lengths.1 h.lengths.2 []
  obtain ⟨o, o', l, l', a1, a2, a3, a4⟩ := C55_in_bounds p k T R C pwd salt h
  obtain ⟨x, x', m, m', n, b1, b2, b3, b4, rfl, -⟩ := C56_cost p k T R C pwd salt h
  unfold Res.Returns at a1 a2 b1 b2
  have e1 := Res.pure_inj (a1.symm.trans b1)
  have e2 := Res.pure_inj (a2.symm.trans b2)
  cases e1
  cases e2
  rcases hf with rfl | rfl
  · rw [e.1]
    exact ⟨o, l, bytesLogOf_returns a1, a3, b3⟩
  · rw [e.2]
    exact ⟨o', l', bytesLogOf_returns a2, a4, b4⟩

/-- **C64** (vi) The text of the chains does the same work for every input. -/
theorem C64_chains_cost (p : Profile) (dg : Digests) (hb : Bytes32 dg) (depth : Nat) (hd : 8 ≤ depth) (input : List U8) :
    (∃ log, (callL seen crate (digests dg) 64 p depth "lyra2re::sum" [.bytes input] []).Returns
        (.bytes (Spec.Chains.lyra2re dg.blake256 dg.keccak256 dg.skein512_256 dg.groestl256 input), log) ∧ ChainCost log 128 4 5569 2896 0 768) ∧
    (∃ log, (callL seen crate (digests dg) 64 p depth "lyra2rev2::sum" [.bytes input] []).Returns
        (.bytes (Spec.Chains.lyra2rev2 dg.blake256 dg.keccak256 dg.skein512_256 input), log) ∧ ChainCost log 32 4 1249 688 0 192) ∧
    (∃ log, (callL seen crate (digests dg) 64 p depth "lyra2rev3::sum" [.bytes input] []).Returns
        (.bytes (Spec.Chains.lyra2rev3 dg.blake256 input), log) ∧ ChainCost log 64 8 2498 1376 16 192) ∧
    (∃ log, (callL seen crate (digests dg) 64 p depth "lyra2z::sum" [.bytes input] []).Returns
        (.bytes (Spec.Chains.lyra2z dg.blake256 input), log) ∧ ChainCost log 576 4 27073 13648 0 768) := by
  have hs : Slices 64 dg := ⟨fun x => by rw [hb.blake256]; decide, fun x => by rw [hb.keccak256]; decide⟩
  obtain ⟨e1, e2, e3, e4⟩ := C64_chains p dg hs depth hd input []
  obtain ⟨⟨l1, a1, c1⟩, ⟨l2, a2, c2⟩, ⟨l3, a3, c3⟩, ⟨l4, a4, c4⟩⟩ := C62_cost p dg hb input
  rw [e1, e2, e3, e4]
  exact ⟨⟨l1, bytesLogOf_returns a1, c1⟩, ⟨l2, bytesLogOf_returns a2, c2⟩, ⟨l3, bytesLogOf_returns a3, c3⟩, ⟨l4, bytesLogOf_returns a4, c4⟩⟩

/-- The parameters of Lyra2REv2, run from the text. -/
example (p : Profile) (pwd : List U8) (hp : pwd.length = 32) : ∃ out log,
    (callL seen crate (fun _ => none) 64 p 6 "lyra2::lyra2" [.u64 32, .bytes pwd, .bytes pwd, .u64 1, .u64 4, .u64 4] []).Returns
      (.bytes out, log) ∧ Event.count .round log = 32 := by
  obtain ⟨out, log, h1, -, h2⟩ := C64_cost p (fun _ => none) 6 (le_refl _) 32 1 4 4 pwd pwd (by rw [hp]; unfold Accepts isizeMax; decide)
    _ (.inl rfl)
  refine ⟨out, log, h1, ?_⟩
  rw [h2.rounds]
  decide +kernel

/-- The text of the published Lyra2Z on the empty input. -/
example (p : Profile) : ∃ log, (callL seen crate (digests published) 64 p 8 "lyra2z::sum" [.bytes []] []).Returns
    (.bytes (Spec.Chains.lyra2z published.blake256 []), log) ∧ ChainCost log 576 4 27073 13648 0 768 :=
  (C64_chains_cost p published C41_bytes32 8 (le_refl _) []).2.2.2

end Props

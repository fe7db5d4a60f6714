import Verif.Props.Chains
import Verif.Props.Outcome
import Verif.Proofs.SrcChains
import Verif.Source.Parsed

/-! Properties C59 - C60: the text of the source. `Source.crate` is what the parser (`Source/Parser.lean`) reads from the text of
/repo/src (`Source/Text.lean`), `Source.call` the meaning of a call (`Source/Semantics.lean`), here on a
target whose `usize` has 64 bits. -/

namespace Props
open Rust Source
open Spec.Lyra2 (masked rev3Masked)
open Model.Chains (Digests)

/-- The outcome of a call whose result is a sequence of bytes. -/
def bytesOf (m : Res (List U8)) : Res Val := m >>= fun xs => pure (.bytes xs)

theorem bytesOf_returns {m : Res (List U8)} {xs : List U8} (h : m.Returns xs) : (bytesOf m).Returns (.bytes xs) := by
  unfold Res.Returns at *
  rw [h]; rfl

theorem bytesOf_returns_iff {m : Res (List U8)} {v : Val} (h : (bytesOf m).Returns v) : ∃ xs, v = .bytes xs ∧ m.Returns xs := by
  match m, h with
  | some (.ok xs), h => cases h; exact ⟨xs, rfl, rfl⟩
  | some (.error _), h => cases h
  | none, h => cases h

theorem bytesOf_panics {m : Res (List U8)} (h : m.Panics) : (bytesOf m).Panics := by
  obtain ⟨e, h⟩ := h
  exact ⟨e, by rw [h]; rfl⟩

theorem bytesOf_diverges {m : Res (List U8)} (h : (bytesOf m).Diverges) : m.Diverges := by
  match m, h with
  | some (.ok xs), h => cases h
  | some (.error _), h => cases h
  | none, _ => rfl

theorem sum_64 : Model.Target.sum 64 = Model.Lyra2.sum := by
  funext p x
  unfold Model.Target.sum Model.Lyra2.sum
  rw [Proofs.Target.lyra2_64]

theorem modSum_64 : Model.Target.modSum 64 = Model.Lyra2mod.sum := by
  funext p x
  unfold Model.Target.modSum Model.Lyra2mod.sum
  rw [Proofs.Target.lyra2mod_64]

theorem chains_64 (p : Profile) (dg : Digests) (x : List U8) :
    Model.Target.lyra2re 64 p dg x = Model.Chains.Lyra2re.sum p dg x ∧
      Model.Target.lyra2rev2 64 p dg x = Model.Chains.Lyra2rev2.sum p dg x ∧
      Model.Target.lyra2rev3 64 p dg x = Model.Chains.Lyra2rev3.sum p dg x ∧
      Model.Target.lyra2z 64 p dg x = Model.Chains.Lyra2z.sum p dg x := by
  unfold Model.Target.lyra2re Model.Target.lyra2rev2 Model.Target.lyra2rev3 Model.Target.lyra2z
  rw [sum_64, modSum_64, Proofs.Target.lyra2_64]
  exact ⟨rfl, rfl, rfl, rfl⟩

/-! ## C59 -/

/-- **C59** (text) The functions that the following theorems run are those that the parser reads from the text of the files. The
kernel checks this by running the parser. -/
theorem C59_text : parseFiles files = some crate := parseFiles_files

/-- **C59** (i) Running the text of `lyra2` or `lyra2mod` is running the model: same result, same panic, for all arguments and both
build profiles. The limit on the lengths is the one that every slice obeys. -/
theorem C59_lyra2 (p : Profile) (ext : String → Option (List U8 → List U8)) (depth : Nat) (hd : 6 ≤ depth) (k T R C : U64) (pwd salt : List U8)
    (hp : pwd.length ≤ isizeMax) (hs : salt.length ≤ isizeMax) :
    call crate ext 64 p depth "lyra2::lyra2" [.u64 k, .bytes pwd, .bytes salt, .u64 T, .u64 R, .u64 C] =
        bytesOf (Model.Lyra2.lyra2 p k pwd salt T R C) ∧
      call crate ext 64 p depth "lyra2mod::lyra2mod" [.u64 k, .bytes pwd, .bytes salt, .u64 T, .u64 R, .u64 C] =
        bytesOf (Model.Lyra2mod.lyra2mod p k pwd salt T R C) := by
  obtain ⟨d, rfl⟩ := Nat.exists_eq_add_of_le' hd
  have h1 := call_lyra2 (u := 64) (p := p) (ext := ext) (d := d) k pwd salt T R C hp hs
  have h2 := Source.Mod.call_lyra2mod (u := 64) (p := p) (ext := ext) (d := d) k pwd salt T R C hp hs
  rw [Proofs.Target.lyra2_64] at h1
  rw [Proofs.Target.lyra2mod_64] at h2
  exact ⟨h1, h2⟩

/-- **C59** (ii) The same for the two `sum` functions. -/
theorem C59_sum (p : Profile) (ext : String → Option (List U8 → List U8)) (depth : Nat) (hd : 7 ≤ depth) (input : List U8)
    (h : input.length ≤ isizeMax) :
    call crate ext 64 p depth "lyra2::sum" [.bytes input] = bytesOf (Model.Lyra2.sum p input) ∧
      call crate ext 64 p depth "lyra2mod::sum" [.bytes input] = bytesOf (Model.Lyra2mod.sum p input) := by
  obtain ⟨d, rfl⟩ := Nat.exists_eq_add_of_le' hd
  have h1 := Source.call_sum (u := 64) (p := p) (ext := ext) (d := d) input h
  have h2 := Source.Mod.call_sum (u := 64) (p := p) (ext := ext) (d := d) input h
  rw [sum_64] at h1
  rw [modSum_64] at h2
  exact ⟨h1, h2⟩

/-- **C59** (iii) The same for `cubehash::sum` and `bmw::sum`. -/
theorem C59_cubehash_bmw (p : Profile) (ext : String → Option (List U8 → List U8)) (depth : Nat) (hd : 3 ≤ depth) (input : List U8)
    (h : input.length ≤ isizeMax) :
    call crate ext 64 p depth "cubehash::sum" [.bytes input] = bytesOf (Model.CubeHash.sum input) ∧
      call crate ext 64 p depth "bmw::sum" [.bytes input] = bytesOf (Model.Bmw.sum input) := by
  obtain ⟨d, rfl⟩ := Nat.exists_eq_add_of_le' hd
  exact ⟨Source.Cube.call_sum (u := 64) input, Source.Bmw.call_sum (u := 64) input (lt_of_le_of_lt h (by unfold isizeMax; decide))⟩

/-- **C59** (iv) The same for the four chains, whatever functions from bytes to slices the other crates provide. -/
theorem C59_chains (p : Profile) (dg : Digests) (hs : Slices 64 dg) (depth : Nat) (hd : 8 ≤ depth) (input : List U8) :
    call crate (digests dg) 64 p depth "lyra2re::sum" [.bytes input] = bytesOf (Model.Chains.Lyra2re.sum p dg input) ∧
      call crate (digests dg) 64 p depth "lyra2rev2::sum" [.bytes input] = bytesOf (Model.Chains.Lyra2rev2.sum p dg input) ∧
      call crate (digests dg) 64 p depth "lyra2rev3::sum" [.bytes input] = bytesOf (Model.Chains.Lyra2rev3.sum p dg input) ∧
      call crate (digests dg) 64 p depth "lyra2z::sum" [.bytes input] = bytesOf (Model.Chains.Lyra2z.sum p dg input) := by
  obtain ⟨d, rfl⟩ := Nat.exists_eq_add_of_le' hd
  have h1 := Source.Chains.call_lyra2re (u := 64) (p := p) (d := d + 1) dg hs input
  have h2 := Source.Chains.call_lyra2rev2 (u := 64) (p := p) (d := d) dg input
  have h3 := Source.Chains.call_lyra2rev3 (u := 64) (p := p) (d := d) dg hs input
  have h4 := Source.Chains.call_lyra2z (u := 64) (p := p) (d := d + 1) dg hs input
  obtain ⟨e1, e2, e3, e4⟩ := chains_64 p dg input
  rw [e1] at h1
  rw [e2] at h2
  rw [e3] at h3
  rw [e4] at h4
  exact ⟨h1, h2, h3, h4⟩

/-- **C59** (v) The same for the readers of `utils`. -/
theorem C59_utils (p : Profile) (ext : String → Option (List U8 → List U8)) (depth : Nat) (hd : 1 ≤ depth) (data : List U8) :
    call crate ext 64 p depth "utils::read_u32_le" [.bytes data] = (Model.Utils.read_u32_le data >>= fun x => pure (.u32 x)) ∧
      call crate ext 64 p depth "utils::read_u64_le" [.bytes data] = (Model.Utils.read_u64_le data >>= fun x => pure (.u64 x)) := by
  obtain ⟨d, rfl⟩ := Nat.exists_eq_add_of_le' hd
  exact ⟨Source.call_read_u32_le (u := 64) data, Source.call_read_u64_le (u := 64) data⟩

/-! ## C60 -/

/-- **C60** (i) The text of `lyra2` and `lyra2mod`, with overflow checks: a call returns exactly if its arguments are accepted, and
then it returns the value of the specification; otherwise it panics. No call runs forever. -/
theorem C60_lyra2 (ext : String → Option (List U8 → List U8)) (depth : Nat) (hd : 6 ≤ depth) (k T R C : U64) (pwd salt : List U8)
    (hp : pwd.length ≤ isizeMax) (hs : salt.length ≤ isizeMax) :
    (Accepts k pwd.length salt.length T R C →
      (call crate ext 64 .debug depth "lyra2::lyra2" [.u64 k, .bytes pwd, .bytes salt, .u64 T, .u64 R, .u64 C]).Returns
          (.bytes (masked k.toNat pwd salt T.toNat R.toNat C.toNat)) ∧
        (call crate ext 64 .debug depth "lyra2mod::lyra2mod" [.u64 k, .bytes pwd, .bytes salt, .u64 T, .u64 R, .u64 C]).Returns
          (.bytes (rev3Masked k.toNat pwd salt T.toNat R.toNat C.toNat))) ∧
    (¬ Accepts k pwd.length salt.length T R C →
      (call crate ext 64 .debug depth "lyra2::lyra2" [.u64 k, .bytes pwd, .bytes salt, .u64 T, .u64 R, .u64 C]).Panics ∧
        (call crate ext 64 .debug depth "lyra2mod::lyra2mod" [.u64 k, .bytes pwd, .bytes salt, .u64 T, .u64 R, .u64 C]).Panics) := by
  obtain ⟨e1, e2⟩ := C59_lyra2 .debug ext depth hd k T R C pwd salt hp hs
  rw [e1, e2]
  exact ⟨fun h => ⟨bytesOf_returns (C06_lyra2_result _ _ _ _ _ _ _ h), bytesOf_returns (C20_lyra2mod_result _ _ _ _ _ _ _ h)⟩,
    fun h => ⟨bytesOf_panics ((C01_lyra2_domain _ _ _ _ _ _).2.1 h), bytesOf_panics ((C19_lyra2mod_domain _ _ _ _ _ _).2.1 h)⟩⟩

/-- **C60** (ii) The text of `cubehash::sum` computes CubeHash16/32-256 of 32 bytes, that of `bmw::sum` BMW-256 of up to 55 bytes. -/
theorem C60_cubehash_bmw (p : Profile) (ext : String → Option (List U8 → List U8)) (depth : Nat) (hd : 3 ≤ depth) (input : List U8) :
    (input.length = 32 → (call crate ext 64 p depth "cubehash::sum" [.bytes input]).Returns (.bytes (Spec.CubeHash.hash input))) ∧
      (input.length ≤ 55 → (call crate ext 64 p depth "bmw::sum" [.bytes input]).Returns (.bytes (Spec.Bmw.hash input))) := by
  constructor
  · intro h
    rw [(C59_cubehash_bmw p ext depth hd input (by rw [h]; unfold isizeMax; decide)).1]
    exact bytesOf_returns (C25_is_cubehash input h)
  · intro h
    rw [(C59_cubehash_bmw p ext depth hd input (le_trans h (by unfold isizeMax; decide))).2]
    exact bytesOf_returns (C29_is_bmw input h)

/-- **C60** (iii) The text of the four chains returns, for every input, the value of the published composition. -/
theorem C60_chains (p : Profile) (dg : Digests) (hb : Bytes32 dg) (depth : Nat) (hd : 8 ≤ depth) (input : List U8) :
    (call crate (digests dg) 64 p depth "lyra2re::sum" [.bytes input]).Returns
        (.bytes (Spec.Chains.lyra2re dg.blake256 dg.keccak256 dg.skein512_256 dg.groestl256 input)) ∧
      (call crate (digests dg) 64 p depth "lyra2rev2::sum" [.bytes input]).Returns
        (.bytes (Spec.Chains.lyra2rev2 dg.blake256 dg.keccak256 dg.skein512_256 input)) ∧
      (call crate (digests dg) 64 p depth "lyra2rev3::sum" [.bytes input]).Returns (.bytes (Spec.Chains.lyra2rev3 dg.blake256 input)) ∧
      (call crate (digests dg) 64 p depth "lyra2z::sum" [.bytes input]).Returns (.bytes (Spec.Chains.lyra2z dg.blake256 input)) := by
  have hs : Slices 64 dg := ⟨fun x => by rw [hb.blake256]; decide, fun x => by rw [hb.keccak256]; decide⟩
  obtain ⟨e1, e2, e3, e4⟩ := C59_chains p dg hs depth hd input
  rw [e1, e2, e3, e4]
  exact ⟨bytesOf_returns (C38_lyra2re p dg hb input), bytesOf_returns (C38_lyra2rev2 p dg hb input),
    bytesOf_returns (C38_lyra2rev3 p dg hb input), bytesOf_returns (C38_lyra2z p dg hb input)⟩

/-- An accepted call and a rejected one. -/
example : (call crate (fun _ => none) 64 .debug 6 "lyra2::lyra2" [.u64 24, .bytes [1, 2, 3], .bytes [4, 5], .u64 3, .u64 5, .u64 2]).Returns
      (.bytes (masked 24 [1, 2, 3] [4, 5] 3 5 2)) ∧
    (call crate (fun _ => none) 64 .debug 6 "lyra2::lyra2" [.u64 97, .bytes [1, 2, 3], .bytes [4, 5], .u64 3, .u64 5, .u64 2]).Panics :=
  ⟨((C60_lyra2 (fun _ => none) 6 (le_refl _) 24 3 5 2 [1, 2, 3] [4, 5] (by unfold isizeMax; decide) (by unfold isizeMax; decide)).1
      (by unfold Accepts isizeMax; decide)).1,
    ((C60_lyra2 (fun _ => none) 6 (le_refl _) 97 3 5 2 [1, 2, 3] [4, 5] (by unfold isizeMax; decide) (by unfold isizeMax; decide)).2
      (by unfold Accepts isizeMax; decide)).1⟩

example : (call crate (fun _ => none) 64 .release 3 "bmw::sum" [.bytes [97, 98, 99]]).Returns (.bytes (Spec.Bmw.hash [97, 98, 99])) :=
  (C60_cubehash_bmw .release (fun _ => none) 3 (le_refl _) [97, 98, 99]).2 (by decide)

/-- Functions that other crates could provide. -/
example : Slices 64 ⟨fun x => x.take 32, fun x => x.take 64, id, id⟩ :=
  ⟨fun x => by have : (x.take 32).length ≤ 32 := by simp
               exact le_trans this (by decide),
   fun x => by have : (x.take 64).length ≤ 64 := by simp
               exact le_trans this (by decide)⟩

end Props

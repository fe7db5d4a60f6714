import Verif.Props.Lyra2
import Verif.Props.CubeHash
import Verif.Props.Bmw
import Verif.Model.Chains
import Verif.Spec.Chains

/-! Properties C33 - C39: the little-endian readers and the hash chains. -/

namespace Props
open Rust Rust.Res Spec
open Model.Chains (Digests)

/-! ## C33 -/

/-- **C33** `read_u32_le` returns the little-endian value of the first four bytes and panics exactly on shorter slices. -/
theorem C33_read_u32_le (data : List U8) :
    (4 ≤ data.length → (Model.Utils.read_u32_le data).Returns (BitVec.ofNat 32 (leNat (data.take 4)))) ∧
      (data.length < 4 → (Model.Utils.read_u32_le data).Panics) :=
  ⟨Proofs.Bytes.read32_ok, Proofs.Bytes.read32_panics⟩

/-- **C33** `read_u64_le` returns the little-endian value of the first eight bytes and panics exactly on shorter slices. -/
theorem C33_read_u64_le (data : List U8) :
    (8 ≤ data.length → (Model.Utils.read_u64_le data).Returns (BitVec.ofNat 64 (leNat (data.take 8)))) ∧
      (data.length < 8 → (Model.Utils.read_u64_le data).Panics) :=
  ⟨Proofs.Bytes.read64_ok, Proofs.Bytes.read64_panics⟩

/-- **C33** The readers invert `to_le_bytes`, whatever follows. -/
theorem C33_inverts_to_le_bytes (x : U32) (y : U64) (rest : List U8) :
    (Model.Utils.read_u32_le (toLeBytes32 x ++ rest)).Returns x ∧ (Model.Utils.read_u64_le (toLeBytes64 y ++ rest)).Returns y := by
  constructor
  · have h := (C33_read_u32_le (toLeBytes32 x ++ rest)).1 (by rw [List.length_append, Proofs.Bytes.toLeBytes32_length]; omega)
    rw [List.take_left' (Proofs.Bytes.toLeBytes32_length x), Proofs.Bytes.toLeBytes32_eq, Proofs.Bytes.leNat_leBytes] at h
    have : BitVec.ofNat 32 (x.toNat % 256 ^ 4) = x := by
      apply BitVec.eq_of_toNat_eq
      have := x.isLt
      rw [BitVec.toNat_ofNat]; omega
    rw [this] at h
    rw [Proofs.Bytes.toLeBytes32_eq]
    exact h
  · have h := (C33_read_u64_le (toLeBytes64 y ++ rest)).1 (by rw [List.length_append, Proofs.Bytes.toLeBytes64_length]; omega)
    rw [List.take_left' (Proofs.Bytes.toLeBytes64_length y), Proofs.Bytes.toLeBytes64_eq, Proofs.Bytes.leNat_leBytes] at h
    have : BitVec.ofNat 64 (y.toNat % 256 ^ 8) = y := by
      apply BitVec.eq_of_toNat_eq
      have := y.isLt
      rw [BitVec.toNat_ofNat]; omega
    rw [this] at h
    rw [Proofs.Bytes.toLeBytes64_eq]
    exact h

/-- **C33** On slices of exactly four / eight bytes the readers lose nothing. -/
theorem C33_injective (a b : List U8) :
    (a.length = 4 → b.length = 4 → Model.Utils.read_u32_le a = Model.Utils.read_u32_le b → a = b) ∧
      (a.length = 8 → b.length = 8 → Model.Utils.read_u64_le a = Model.Utils.read_u64_le b → a = b) := by
  constructor
  · intro ha hb h
    rw [Proofs.Bytes.read32_ok (by omega), Proofs.Bytes.read32_ok (by omega), List.take_of_length_le (by omega),
      List.take_of_length_le (by omega)] at h
    have h := congrArg BitVec.toNat (Res.pure_inj h)
    have h1 := Proofs.Bytes.leNat_lt a
    have h2 := Proofs.Bytes.leNat_lt b
    rw [ha] at h1
    rw [hb] at h2
    rw [BitVec.toNat_ofNat, BitVec.toNat_ofNat, Nat.mod_eq_of_lt (by omega), Nat.mod_eq_of_lt (by omega)] at h
    exact Proofs.Bytes.leNat_inj (by omega) h
  · intro ha hb h
    rw [Proofs.Bytes.read64_ok (by omega), Proofs.Bytes.read64_ok (by omega), List.take_of_length_le (by omega),
      List.take_of_length_le (by omega)] at h
    have h := congrArg BitVec.toNat (Res.pure_inj h)
    have h1 := Proofs.Bytes.leNat_lt a
    have h2 := Proofs.Bytes.leNat_lt b
    rw [ha] at h1
    rw [hb] at h2
    rw [BitVec.toNat_ofNat, BitVec.toNat_ofNat, Nat.mod_eq_of_lt (by omega), Nat.mod_eq_of_lt (by omega)] at h
    exact Proofs.Bytes.leNat_inj (by omega) h

/-- The first byte is the least significant one. -/
example : (Model.Utils.read_u32_le [1, 2, 0, 0, 99]).Returns 0x0201 := (C33_read_u32_le [1, 2, 0, 0, 99]).1 (by decide)

/-! ## C38: the chains compute the published compositions -/

/-- The external digests return 32 bytes. -/
structure Bytes32 (d : Digests) : Prop where
  blake256 : ∀ x, (d.blake256 x).length = 32
  keccak256 : ∀ x, (d.keccak256 x).length = 32
  skein512_256 : ∀ x, (d.skein512_256 x).length = 32
  groestl256 : ∀ x, (d.groestl256 x).length = 32

/-- 32-byte-valued functions exist: constant ones, and ones that copy the first bytes of the input. -/
example : Bytes32 ⟨fun _ => List.replicate 32 0, fun x => (x ++ List.replicate 32 0).take 32, fun _ => List.replicate 32 1,
    fun x => (x ++ List.replicate 32 2).take 32⟩ :=
  ⟨fun _ => by simp, fun _ => by simp, fun _ => by simp, fun _ => by simp⟩

theorem accepts_188 : Accepts 32 32 32 1 8 8 := by unfold Accepts isizeMax; decide
theorem accepts_144 : Accepts 32 32 32 1 4 4 := by unfold Accepts isizeMax; decide
theorem accepts_888 : Accepts 32 32 32 8 8 8 := by unfold Accepts isizeMax; decide

theorem lyra2_digest (p : Profile) {T R C : U64} {t r c : Nat} (ht : T.toNat = t) (hr : R.toNat = r) (hc : C.toNat = c)
    (ha : Accepts 32 32 32 T R C) (hR : ∃ j, r = 2 ^ j) {x : List U8} (hx : x.length = 32) :
    Model.Lyra2.lyra2 p 32 x x T R C = pure (Spec.Chains.lyra2Of t r c x) := by
  subst ht hr hc
  exact C05_lyra2_reference p 32 T R C x x (by rw [hx]; exact ha) (by rw [hx]; decide) (by rw [hx]; decide) hR

theorem lyra2_144 (p : Profile) {x : List U8} (hx : x.length = 32) : Model.Lyra2.lyra2 p 32 x x 1 4 4 = pure (Spec.Chains.lyra2Of 1 4 4 x) :=
  lyra2_digest p rfl rfl rfl accepts_144 ⟨2, rfl⟩ hx
theorem lyra2_188 (p : Profile) {x : List U8} (hx : x.length = 32) : Model.Lyra2.lyra2 p 32 x x 1 8 8 = pure (Spec.Chains.lyra2Of 1 8 8 x) :=
  lyra2_digest p rfl rfl rfl accepts_188 ⟨3, rfl⟩ hx
theorem lyra2_888 (p : Profile) {x : List U8} (hx : x.length = 32) : Model.Lyra2.lyra2 p 32 x x 8 8 8 = pure (Spec.Chains.lyra2Of 8 8 8 x) :=
  lyra2_digest p rfl rfl rfl accepts_888 ⟨3, rfl⟩ hx

theorem lyra2_888_length {x : List U8} (hx : x.length = 32) : (Spec.Chains.lyra2Of 8 8 8 x).length = 32 :=
  (C03_output_length .debug 32 8 8 8 x x _ (lyra2_888 .debug hx)).1

theorem lyra2mod_digest (p : Profile) {x : List U8} (hx : x.length = 32) :
    Model.Lyra2mod.lyra2mod p 32 x x 1 4 4 = pure (Spec.Chains.lyra2modOf x) :=
  C20_lyra2mod_rev3 p 32 1 4 4 x x (by rw [hx]; exact accepts_144) (by rw [hx]; decide) (by rw [hx]; decide) ⟨2, rfl⟩

theorem lyra2modOf_length {x : List U8} (hx : x.length = 32) : (Spec.Chains.lyra2modOf x).length = 32 :=
  ((C19_lyra2mod_domain 32 1 4 4 x x).2.2.2 _ _ (lyra2mod_digest .debug hx)).1

/-- **C38** `lyra2re::sum` is Lyra2RE. -/
theorem C38_lyra2re (p : Profile) (d : Digests) (hd : Bytes32 d) (input : List U8) :
    (Model.Chains.Lyra2re.sum p d input).Returns
      (Spec.Chains.lyra2re d.blake256 d.keccak256 d.skein512_256 d.groestl256 input) := by
  unfold Model.Chains.Lyra2re.sum Spec.Chains.lyra2re Returns
  dsimp only
  rw [lyra2_188 p (hd.keccak256 _), pure_bind]

/-- **C38** `lyra2rev2::sum` is Lyra2REv2. -/
theorem C38_lyra2rev2 (p : Profile) (d : Digests) (hd : Bytes32 d) (input : List U8) :
    (Model.Chains.Lyra2rev2.sum p d input).Returns
      (Spec.Chains.lyra2rev2 d.blake256 d.keccak256 d.skein512_256 input) := by
  unfold Model.Chains.Lyra2rev2.sum Spec.Chains.lyra2rev2 Returns Model.Lyra2.sum
  dsimp only
  rw [Proofs.CubeHash.sum_ok (hd.keccak256 _), pure_bind,
    lyra2_144 p (Proofs.CubeHash.hash_length _), pure_bind,
    Proofs.CubeHash.sum_ok (hd.skein512_256 _), pure_bind,
    Proofs.Bmw.sum_hash (by rw [Proofs.CubeHash.hash_length]; decide)]

/-- **C38** `lyra2rev3::sum` is Lyra2REv3. -/
theorem C38_lyra2rev3 (p : Profile) (d : Digests) (hd : Bytes32 d) (input : List U8) :
    (Model.Chains.Lyra2rev3.sum p d input).Returns (Spec.Chains.lyra2rev3 d.blake256 input) := by
  unfold Model.Chains.Lyra2rev3.sum Spec.Chains.lyra2rev3 Returns Model.Lyra2mod.sum
  dsimp only
  rw [lyra2mod_digest p (hd.blake256 _), pure_bind, Proofs.CubeHash.sum_ok (lyra2modOf_length (hd.blake256 _)), pure_bind,
    lyra2mod_digest p (Proofs.CubeHash.hash_length _), pure_bind,
    Proofs.Bmw.sum_hash (by rw [lyra2modOf_length (Proofs.CubeHash.hash_length _)]; decide)]

/-- **C38** `lyra2z::sum` is Lyra2Z. -/
theorem C38_lyra2z (p : Profile) (d : Digests) (hd : Bytes32 d) (input : List U8) :
    (Model.Chains.Lyra2z.sum p d input).Returns (Spec.Chains.lyra2z d.blake256 input) := by
  unfold Model.Chains.Lyra2z.sum Spec.Chains.lyra2z Returns
  dsimp only
  rw [lyra2_888 p (hd.blake256 _)]

/-! ## C34 - C37 -/

/-- **C34** `lyra2re::sum` returns 32 bytes for every input. -/
theorem C34_lyra2re_total (p : Profile) (d : Digests) (hd : Bytes32 d) (input : List U8) :
    ∃ out, (Model.Chains.Lyra2re.sum p d input).Returns out ∧ out.length = 32 :=
  ⟨_, C38_lyra2re p d hd input, hd.groestl256 _⟩

theorem bmw_length {x : List U8} (h : x.length ≤ 55) : (Spec.Bmw.hash x).length = 32 := by
  obtain ⟨out, h1, h2⟩ := (C28_domain x).1 (by omega)
  rw [Res.pure_inj ((C29_is_bmw x h).symm.trans h1)]
  exact h2

/-- **C35** `lyra2rev2::sum` returns 32 bytes for every input. -/
theorem C35_lyra2rev2_total (p : Profile) (d : Digests) (hd : Bytes32 d) (input : List U8) :
    ∃ out, (Model.Chains.Lyra2rev2.sum p d input).Returns out ∧ out.length = 32 :=
  ⟨_, C38_lyra2rev2 p d hd input, bmw_length (by rw [Proofs.CubeHash.hash_length]; decide)⟩

/-- **C36** `lyra2rev3::sum` returns 32 bytes for every input. -/
theorem C36_lyra2rev3_total (p : Profile) (d : Digests) (hd : Bytes32 d) (input : List U8) :
    ∃ out, (Model.Chains.Lyra2rev3.sum p d input).Returns out ∧ out.length = 32 :=
  ⟨_, C38_lyra2rev3 p d hd input, bmw_length (by rw [lyra2modOf_length (Proofs.CubeHash.hash_length _)]; decide)⟩

/-- **C37** `lyra2z::sum` returns 32 bytes for every input. -/
theorem C37_lyra2z_total (p : Profile) (d : Digests) (hd : Bytes32 d) (input : List U8) :
    ∃ out, (Model.Chains.Lyra2z.sum p d input).Returns out ∧ out.length = 32 :=
  ⟨_, C38_lyra2z p d hd input, lyra2_888_length (hd.blake256 _)⟩

/-! ## C39 -/

/-- **C39** Two inputs with the same Blake-256 digest have the same results; no hypothesis on the digests. -/
theorem C39_blake_only (p : Profile) (d : Digests) (x y : List U8) (h : d.blake256 x = d.blake256 y) :
    Model.Chains.Lyra2re.sum p d x = Model.Chains.Lyra2re.sum p d y ∧
      Model.Chains.Lyra2rev2.sum p d x = Model.Chains.Lyra2rev2.sum p d y ∧
      Model.Chains.Lyra2rev3.sum p d x = Model.Chains.Lyra2rev3.sum p d y ∧
      Model.Chains.Lyra2z.sum p d x = Model.Chains.Lyra2z.sum p d y := by
  unfold Model.Chains.Lyra2re.sum Model.Chains.Lyra2rev2.sum Model.Chains.Lyra2rev3.sum Model.Chains.Lyra2z.sum
  rw [h]
  exact ⟨rfl, rfl, rfl, rfl⟩

/-- **C39** The result of each chain is the same in debug and release builds. -/
theorem C39_profiles (d : Digests) (hd : Bytes32 d) (x : List U8) :
    Model.Chains.Lyra2re.sum .debug d x = Model.Chains.Lyra2re.sum .release d x ∧
      Model.Chains.Lyra2rev2.sum .debug d x = Model.Chains.Lyra2rev2.sum .release d x ∧
      Model.Chains.Lyra2rev3.sum .debug d x = Model.Chains.Lyra2rev3.sum .release d x ∧
      Model.Chains.Lyra2z.sum .debug d x = Model.Chains.Lyra2z.sum .release d x :=
  ⟨(C38_lyra2re _ d hd x).trans (C38_lyra2re _ d hd x).symm, (C38_lyra2rev2 _ d hd x).trans (C38_lyra2rev2 _ d hd x).symm,
    (C38_lyra2rev3 _ d hd x).trans (C38_lyra2rev3 _ d hd x).symm, (C38_lyra2z _ d hd x).trans (C38_lyra2z _ d hd x).symm⟩

end Props

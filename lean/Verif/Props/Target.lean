import Verif.Props.Chains
import Verif.Props.RowsMod
import Verif.Proofs.Target32Main

/-! Properties C52-C54: targets with 32-bit `usize`. -/

namespace Props
open Rust Rust.Res

/-! ## C52 -/

/-- The conditions of `Accepts` on everything but the length of the key, with the `isize::MAX` of a 32-bit target. -/
def Accepts32 (pwdLen saltLen : Nat) (T R C : U64) : Prop :=
  1 ≤ T.toNat ∧ 3 ≤ R.toNat ∧ 96 * (R.toNat * C.toNat) ≤ 2 ^ 31 - 1 ∧
    8 * ((pwdLen + saltLen + 48) / 64 + 1) ≤ 12 * (R.toNat * C.toNat)

theorem domain32_iff {a b : Nat} {T R C : U64} : Proofs.Target.Domain32 a b T.toNat R.toNat C.toNat ↔ Accepts32 a b T R C := by
  unfold Accepts32
  constructor
  · rintro ⟨h1, h2, h3, h4⟩
    exact ⟨h1, h2, by omega, h4⟩
  · rintro ⟨h1, h2, h3, h4⟩
    exact ⟨h1, h2, by omega, h4⟩

/-- **C52** (i) The model for a target with `u`-bit `usize` is, for `u = 64`, the model of all other properties. -/
theorem C52_usize64 : Model.Target.lyra2 64 = Model.Lyra2.lyra2 ∧ Model.Target.lyra2mod 64 = Model.Lyra2mod.lyra2mod :=
  ⟨Proofs.Target.lyra2_64, Proofs.Target.lyra2mod_64⟩

/-- **C52** (ii) A call whose matrix fits in the address space of a 32-bit target, with a key of at most 96 bytes, returns the same
bytes on a 32-bit and on a 64-bit target. -/
theorem C52_same_result (p : Profile) (k T R C : U64) (pwd salt : List U8) (hk : k.toNat ≤ 96)
    (h : Accepts32 pwd.length salt.length T R C) :
    (∃ out, (Model.Target.lyra2 32 p k pwd salt T R C).Returns out ∧ (Model.Lyra2.lyra2 p k pwd salt T R C).Returns out) ∧
    (∃ out, (Model.Target.lyra2mod 32 p k pwd salt T R C).Returns out ∧ (Model.Lyra2mod.lyra2mod p k pwd salt T R C).Returns out) := by
  have hs : ∀ s, Model.Lyra2.squeeze p s k = pure (((s.toList.take 12).flatMap toLeBytes64).take k.toNat) := fun s => by
    rw [← Proofs.Target.squeeze_64, Proofs.Target.squeeze_short (by decide) p s k hk]
  constructor
  · obtain ⟨s, h1, h2⟩ := Proofs.Target.lyra2_32 p k T R C pwd salt (domain32_iff.2 h)
    rw [Proofs.Target.squeeze_short (by decide) p s k hk] at h1
    exact ⟨_, h1, h2.trans (hs s)⟩
  · obtain ⟨s, h1, h2⟩ := Proofs.Target.lyra2mod_32 p k T R C pwd salt (domain32_iff.2 h)
    rw [Proofs.Target.squeeze_short (by decide) p s k hk] at h1
    exact ⟨_, h1, h2.trans (hs s)⟩

/-- The key lengths with which a call on a 32-bit target returns. -/
def KeyReturns32 (k : U64) : Prop := k.toNat ≤ 96 ∨ (2 ^ 63 ≤ k.toNat ∧ k.toNat % 2 ^ 32 < 2 ^ 31)

/-- A call that returns for `KeyReturns32` and panics otherwise. -/
theorem key_cases (p : Profile) (k : U64) (s : Model.Lyra2.State) (h : KeyReturns32 k) :
    ∃ out, Model.Target.squeeze 32 p s k = pure out := by
  rcases h with h | ⟨h1, h2⟩
  · exact ⟨_, Proofs.Target.squeeze_short (by decide) p s k h⟩
  · have := Proofs.Target.squeeze_32_zeros p s k h1
    rw [if_pos h2] at this
    exact ⟨_, this⟩

theorem Key32.returns {k : U64} {out : List U8} (h : Proofs.Target.Key32 k out) : KeyReturns32 k := by
  rcases h with h | h
  · exact .inl h.1
  · exact .inr ⟨h.1, h.2.1⟩

/-- **C52** (iii) `lyra2` on a 32-bit target, for `n_rows < 2^63`, in both build profiles: returns exactly under `Accepts32` and
`KeyReturns32`, otherwise panics. It never runs forever, whatever the arguments. -/
theorem C52_lyra2_domain (p : Profile) (k T R C : U64) (pwd salt : List U8) :
    (R.toNat < 2 ^ 63 →
      ((∃ out, (Model.Target.lyra2 32 p k pwd salt T R C).Returns out) ↔
        Accepts32 pwd.length salt.length T R C ∧ KeyReturns32 k) ∧
      (¬ (Accepts32 pwd.length salt.length T R C ∧ KeyReturns32 k) → (Model.Target.lyra2 32 p k pwd salt T R C).Panics)) ∧
    ¬ (Model.Target.lyra2 32 p k pwd salt T R C).Diverges := by
  have hpost := Proofs.Target.lyra2_post p k T R C pwd salt
  refine ⟨fun hR => ⟨⟨?_, ?_⟩, fun h => ?_⟩, hpost.not_diverges⟩
  · rintro ⟨out, hout⟩
    have := hpost.of_eq_pure hout
    exact ⟨domain32_iff.1 (this.2 hR), Key32.returns this.1⟩
  · rintro ⟨h1, h2⟩
    obtain ⟨s, e, -⟩ := Proofs.Target.lyra2_32 p k T R C pwd salt (domain32_iff.2 h1)
    obtain ⟨out, ho⟩ := key_cases p k s h2
    exact ⟨out, e.trans ho⟩
  · exact (hpost.mono fun out ho => h ⟨domain32_iff.1 (ho.2 hR), Key32.returns ho.1⟩).panics

/-- **C52** (iv) The same for `lyra2mod`. -/
theorem C52_lyra2mod_domain (p : Profile) (k T R C : U64) (pwd salt : List U8) :
    (R.toNat < 2 ^ 63 →
      ((∃ out, (Model.Target.lyra2mod 32 p k pwd salt T R C).Returns out) ↔
        Accepts32 pwd.length salt.length T R C ∧ KeyReturns32 k) ∧
      (¬ (Accepts32 pwd.length salt.length T R C ∧ KeyReturns32 k) → (Model.Target.lyra2mod 32 p k pwd salt T R C).Panics)) ∧
    ¬ (Model.Target.lyra2mod 32 p k pwd salt T R C).Diverges := by
  have hpost := Proofs.Target.lyra2mod_post p k T R C pwd salt
  refine ⟨fun hR => ⟨⟨?_, ?_⟩, fun h => ?_⟩, hpost.not_diverges⟩
  · rintro ⟨out, hout⟩
    have := hpost.of_eq_pure hout
    exact ⟨domain32_iff.1 (this.2 hR), Key32.returns this.1⟩
  · rintro ⟨h1, h2⟩
    obtain ⟨s, e, -⟩ := Proofs.Target.lyra2mod_32 p k T R C pwd salt (domain32_iff.2 h1)
    obtain ⟨out, ho⟩ := key_cases p k s h2
    exact ⟨out, e.trans ho⟩
  · exact (hpost.mono fun out ho => h ⟨domain32_iff.1 (ho.2 hR), Key32.returns ho.1⟩).panics

/-- Both sides are inhabited: 4096 x 4096 cells (1.5 GiB) fit on a 32-bit target; 4096 x 8192 do not,
nor do `2^32` rows of one column, whose number is 0 modulo `2^32`; a key of 97 bytes panics. -/
example : Accepts32 32 32 1 4096 4096 ∧ ¬ Accepts32 32 32 1 4096 8192 ∧ ¬ Accepts32 0 0 1 (BitVec.ofNat 64 (2 ^ 32)) 1 ∧
    KeyReturns32 32 ∧ ¬ KeyReturns32 97 := by
  refine ⟨⟨by decide, by decide, by decide, by decide⟩, fun h => absurd h.2.2.1 (by decide), fun h => absurd h.2.2.1 (by decide),
    .inl (by decide), ?_⟩
  rintro (h | h)
  · exact absurd h (by decide)
  · exact absurd h.1 (by decide)

example : (Model.Target.lyra2 32 .release 32 [] [] 1 (BitVec.ofNat 64 (2 ^ 32)) 1).Panics :=
  ((C52_lyra2_domain .release 32 1 (BitVec.ofNat 64 (2 ^ 32)) 1 [] []).1 (by decide)).2 fun h => absurd h.1.2.2.1 (by decide)

example : ∃ out, (Model.Target.lyra2 32 .debug 64 [1, 2] [3] 3 5 7).Returns out ∧ (Model.Lyra2.lyra2 .debug 64 [1, 2] [3] 3 5 7).Returns out :=
  (C52_same_result .debug 64 3 5 7 [1, 2] [3] (by decide) ⟨by decide, by decide, by decide, by decide⟩).1

/-! ## C53 -/

/-- **C53** (i) On a 32-bit target, a key length `k >= 2^63` whose lower 32 bits are below `2^31` yields that many zero bytes, whatever
the password and salt. -/
theorem C53_zero_key (p : Profile) (k T R C : U64) (pwd salt : List U8) (hk : 2 ^ 63 ≤ k.toNat) (hk' : k.toNat % 2 ^ 32 < 2 ^ 31)
    (h : Accepts32 pwd.length salt.length T R C) :
    (Model.Target.lyra2 32 p k pwd salt T R C).Returns (List.replicate (k.toNat % 2 ^ 32) 0) ∧
      (Model.Target.lyra2mod 32 p k pwd salt T R C).Returns (List.replicate (k.toNat % 2 ^ 32) 0) := by
  constructor
  · obtain ⟨s, e, -⟩ := Proofs.Target.lyra2_32 p k T R C pwd salt (domain32_iff.2 h)
    have := Proofs.Target.squeeze_32_zeros p s k hk
    rw [if_pos hk'] at this
    exact e.trans this
  · obtain ⟨s, e, -⟩ := Proofs.Target.lyra2mod_32 p k T R C pwd salt (domain32_iff.2 h)
    have := Proofs.Target.squeeze_32_zeros p s k hk
    rw [if_pos hk'] at this
    exact e.trans this

/-- **C53** (ii) So on a 32-bit target it is false that a returned key has the requested length (C03); it is true of calls with
`k < 2^63`. -/
theorem C53_length (p : Profile) (k T R C : U64) (pwd salt out : List U8) (hk : k.toNat < 2 ^ 63)
    (h : (Model.Target.lyra2 32 p k pwd salt T R C).Returns out) : out.length = k.toNat ∧ k.toNat ≤ 96 := by
  rcases ((Proofs.Target.lyra2_post p k T R C pwd salt).of_eq_pure h).1 with h | h
  · exact ⟨h.2, h.1⟩
  · omega

/-- **C53** (iii) The same for `lyra2mod`. -/
theorem C53_length_mod (p : Profile) (k T R C : U64) (pwd salt out : List U8) (hk : k.toNat < 2 ^ 63)
    (h : (Model.Target.lyra2mod 32 p k pwd salt T R C).Returns out) : out.length = k.toNat ∧ k.toNat ≤ 96 := by
  rcases ((Proofs.Target.lyra2mod_post p k T R C pwd salt).of_eq_pure h).1 with h | h
  · exact ⟨h.2, h.1⟩
  · omega

/-- The negation of C03 on a 32-bit target. -/
theorem C53_not_length : ¬ ∀ (p : Profile) (k T R C : U64) (pwd salt out : List U8),
    (Model.Target.lyra2 32 p k pwd salt T R C).Returns out → out.length = k.toNat := by
  intro h
  have h1 := (C53_zero_key .debug (BitVec.ofNat 64 (2 ^ 63 + 32)) 1 8 8 [1, 2, 3] [4] (by decide) (by decide)
    ⟨by decide, by decide, by decide, by decide⟩).1
  have h2 := h _ _ _ _ _ _ _ _ h1
  rw [List.length_replicate] at h2
  exact absurd h2 (by decide)

/-- With `k = 2^63 + 32` two different passwords yield the same 32 zero bytes; on a 64-bit target the call panics. -/
example : (Model.Target.lyra2 32 .debug (BitVec.ofNat 64 (2 ^ 63 + 32)) [1, 2, 3, 4, 5, 6, 7, 8] [] 1 8 8).Returns (List.replicate 32 0) ∧
    (Model.Target.lyra2 32 .debug (BitVec.ofNat 64 (2 ^ 63 + 32)) [0, 0, 0, 0, 0, 0, 0, 0] [] 1 8 8).Returns (List.replicate 32 0) ∧
    (Model.Lyra2.lyra2 .debug (BitVec.ofNat 64 (2 ^ 63 + 32)) [1, 2, 3, 4, 5, 6, 7, 8] [] 1 8 8).Panics :=
  ⟨(C53_zero_key .debug (BitVec.ofNat 64 (2 ^ 63 + 32)) 1 8 8 _ [] (by decide) (by decide) ⟨by decide, by decide, by decide, by decide⟩).1,
   (C53_zero_key .debug (BitVec.ofNat 64 (2 ^ 63 + 32)) 1 8 8 _ [] (by decide) (by decide) ⟨by decide, by decide, by decide, by decide⟩).1,
   (C01_lyra2_domain _ _ _ _ _ _).2.1 fun h => absurd h.2.2.1 (by decide)⟩

/-! ## C54 -/

theorem sum_32 (p : Profile) (T R C : U64) (x : List U8) (hx : x.length = 32) (h : Accepts32 32 32 T R C) :
    Model.Target.lyra2 32 p 32 x x T R C = Model.Lyra2.lyra2 p 32 x x T R C ∧
      Model.Target.lyra2mod 32 p 32 x x T R C = Model.Lyra2mod.lyra2mod p 32 x x T R C := by
  obtain ⟨⟨a, h1, h2⟩, b, h3, h4⟩ := C52_same_result p 32 T R C x x (by decide) (by rw [hx]; exact h)
  exact ⟨h1.trans h2.symm, h3.trans h4.symm⟩

/-- **C54** The four chains compute the same on a 32-bit and on a 64-bit target, for all inputs. -/
theorem C54_chains (p : Profile) (d : Model.Chains.Digests) (hd : Bytes32 d) (x : List U8) :
    Model.Target.lyra2re 32 p d x = Model.Chains.Lyra2re.sum p d x ∧
    Model.Target.lyra2rev2 32 p d x = Model.Chains.Lyra2rev2.sum p d x ∧
    Model.Target.lyra2rev3 32 p d x = Model.Chains.Lyra2rev3.sum p d x ∧
    Model.Target.lyra2z 32 p d x = Model.Chains.Lyra2z.sum p d x := by
  have hc : ∀ y : List U8, y.length = 32 → ∃ out, Model.CubeHash.sum y = pure out ∧ out.length = 32 :=
    fun y hy => (C24_domain y).2 (by omega)
  have h4 : Accepts32 32 32 1 4 4 := ⟨by decide, by decide, by decide, by decide⟩
  refine ⟨?_, ?_, ?_, ?_⟩
  · unfold Model.Target.lyra2re Model.Chains.Lyra2re.sum
    dsimp only
    rw [(sum_32 p 1 8 8 _ (hd.keccak256 _) ⟨by decide, by decide, by decide, by decide⟩).1]
  · unfold Model.Target.lyra2rev2 Model.Chains.Lyra2rev2.sum
    dsimp only
    obtain ⟨c, e, hl⟩ := hc _ (hd.keccak256 (d.blake256 x))
    rw [e, pure_bind, pure_bind]
    unfold Model.Target.sum Model.Lyra2.sum
    rw [(sum_32 p 1 4 4 _ hl h4).1]
  · unfold Model.Target.lyra2rev3 Model.Chains.Lyra2rev3.sum
    dsimp only
    unfold Model.Target.modSum Model.Lyra2mod.sum
    rw [(sum_32 p 1 4 4 _ (hd.blake256 x) h4).2]
    obtain ⟨a, e, hl⟩ := (C44_sum_domain p (d.blake256 x)).1 (by rw [hd.blake256]; decide)
    unfold Returns Model.Lyra2mod.sum at e
    rw [e, pure_bind, pure_bind]
    obtain ⟨c, e, hl⟩ := hc _ hl
    rw [e, pure_bind, pure_bind, (sum_32 p 1 4 4 _ hl h4).2]
  · unfold Model.Target.lyra2z Model.Chains.Lyra2z.sum
    dsimp only
    rw [(sum_32 p 8 8 8 _ (hd.blake256 _) ⟨by decide, by decide, by decide, by decide⟩).1]

/-- The hypothesis is met by constant digests. -/
example : ∃ d, Bytes32 d :=
  ⟨⟨fun _ => List.replicate 32 0, fun _ => List.replicate 32 0, fun _ => List.replicate 32 0, fun _ => List.replicate 32 0⟩,
    ⟨fun _ => by simp, fun _ => by simp, fun _ => by simp, fun _ => by simp⟩⟩

end Props

import Verif.Props.Lyra2
import Verif.Proofs.SpongeInv

/-! Properties C21 - C23: the sponge. -/

namespace Props
open Rust Rust.Res Spec Spec.Lyra2 Model.Lyra2

/-! ## C21 -/

/-- **C21** (i) The round of the code is the BLAKE2b round; the full transformation is 12 rounds, the reduced one is one. -/
theorem C21_blake2b_round (v : State) :
    round_lyra v = Blake2b.round v ∧ blake2b_lyra v = Blake2b.rounds 12 v ∧ reduced_blake2b_lyra v = Blake2b.round v :=
  ⟨Proofs.Sponge.round_eq v, Proofs.Sponge.blake2b_eq v, Proofs.Sponge.round_eq v⟩

/-- **C21** (ii) All three are bijections of the 1024-bit state. -/
theorem C21_bijective :
    Function.Bijective round_lyra ∧ Function.Bijective blake2b_lyra ∧ Function.Bijective reduced_blake2b_lyra :=
  ⟨Proofs.Sponge.round_bijective, Proofs.Sponge.blake2b_bijective, Proofs.Sponge.reduced_bijective⟩

/-- The round moves the initial state. -/
example : round_lyra init_state ≠ init_state := by decide +kernel

/-! ## C22 -/

/-- **C22** (i) Only the all-zero state is mapped to the all-zero state. -/
theorem C22_zero_fixed (s : State) :
    (blake2b_lyra s = Vector.replicate 16 0 ↔ s = Vector.replicate 16 0) ∧
      (reduced_blake2b_lyra s = Vector.replicate 16 0 ↔ s = Vector.replicate 16 0) := by
  have h1 := C21_bijective.2.1.1
  have h2 := C21_bijective.2.2.1
  constructor
  · exact ⟨fun h => h1 (h.trans Proofs.Sponge.blake2b_zero.symm), fun h => by rw [h, Proofs.Sponge.blake2b_zero]⟩
  · exact ⟨fun h => h2 (h.trans Proofs.Sponge.round_zero.symm), fun h => by rw [h]; exact Proofs.Sponge.round_zero⟩

theorem init_8 : init_state[8] ≠ (Vector.replicate 16 0 : State)[8] := by decide +kernel

/-- **C22** (ii) The initial state is not all-zero, nor is the state after absorbing any first block into it. -/
theorem C22_start_nonzero :
    init_state ≠ Vector.replicate 16 0 ∧
      ∀ (w : Array U64) (s : State), (absorb_block_blake2_safe init_state w).Returns s → s ≠ Vector.replicate 16 0 := by
  refine ⟨by decide +kernel, fun w s h => ?_⟩
  by_cases hw : 8 ≤ w.size
  · have := Proofs.Lyra2.absorbSafe_ok init_state w (Vector.ofFn fun i : Fin 8 => w[i.val]) (fun i => by
      rw [Array.getElem?_eq_getElem (by omega)]; simp)
    have := Res.pure_inj (this.symm.trans h)
    rw [← this, ← Proofs.Sponge.blake2b_eq, Ne, (C22_zero_fixed _).1]
    intro h0
    have h8 := congrArg (fun v : State => v[8]) h0
    simp only [Proofs.Sponge.xorSafe_get' _ _ 8 (by decide) (by decide)] at h8
    exact init_8 h8
  · -- fewer than eight words: no state is returned
    have : (absorb_block_blake2_safe init_state w).Post (fun _ => False) := by
      unfold absorb_block_blake2_safe
      refine Post.bind (Q := fun _ => w.size < 8 → False) ?_ fun s hs => (hs (by omega)).elim
      refine (foldlM_finRange_post (fun j _ => j = 8 → w.size < 8 → False) init_state (fun h => absurd h (by decide))
        fun j s _ => ?_).mono fun s hs h => hs rfl h
      refine Post.bind (vget_post _ _) fun x hx => .pure fun h1 h2 => ?_
      omega
    exact (this.of_eq_pure h).elim

example : ∃ s, (absorb_block_blake2_safe init_state (Array.replicate 8 5)).Returns s :=
  ⟨_, Proofs.Lyra2.absorbSafe_ok init_state _ (Vector.replicate 8 5) (fun i => by simp)⟩

/-! ## C23 -/

/-- **C23** (i) Absorbing different blocks of eight words into the same state gives different states. -/
theorem C23_absorb_safe_injective (s t : State) (w w' : Array U64) (h : (absorb_block_blake2_safe s w).Returns t)
    (h' : (absorb_block_blake2_safe s w').Returns t) (hw : w.size = 8) (hw' : w'.size = 8) : w = w' := by
  have e := Proofs.Lyra2.absorbSafe_ok s w (Vector.ofFn fun i : Fin 8 => w[i.val]) (fun i => by
      rw [Array.getElem?_eq_getElem (by omega)]; simp)
  have e' := Proofs.Lyra2.absorbSafe_ok s w' (Vector.ofFn fun i : Fin 8 => w'[i.val]) (fun i => by
      rw [Array.getElem?_eq_getElem (by omega)]; simp)
  have h1 := Res.pure_inj (e.symm.trans h)
  have h2 := Res.pure_inj (e'.symm.trans h')
  have h3 := Proofs.Sponge.xorSafe_inj _ _ _ (Proofs.Sponge.f_injective (h1.trans h2.symm))
  apply Array.ext (hw.trans hw'.symm)
  intro i hi hi'
  have := congrArg (fun v : Vector U64 8 => v[i]) h3
  simpa using this

/-- The state after the input has been absorbed (src/lyra2.rs:272-339). -/
def absorbedState (p : Profile) (k : U64) (pwd salt : List U8) (T R C : U64) : Res State := do
  let (_, m) ← allocMatrix p R C
  let n ← nBlocksInput p pwd.length salt.length
  let m ← writeInput p k pwd salt T R C n m
  Model.Lyra2.absorbInput n m init_state

theorem absorbedState_eq (p : Profile) (k T R C : U64) (pwd salt : List U8) (h : Accepts k pwd.length salt.length T R C) :
    absorbedState p k pwd salt T R C = pure (Spec.Lyra2.absorbInput (crateWords k.toNat pwd salt T.toNat R.toNat C.toNat)
      (nBlocks (pwd.length + salt.length)) start) := by
  have hC := Proofs.Lyra2.Domain.cols (domain_iff.2 h)
  obtain ⟨hT, hR, hk, hmem, hin⟩ := h
  have hM : 12 * (R.toNat * C.toNat) < 2 ^ 60 := by unfold isizeMax at hmem; omega
  have halloc := Proofs.Lyra2.allocMatrix_ok p (show 0 < R.toNat by omega) hM hC
  rw [ofNat_toNat64, ofNat_toNat64] at halloc
  unfold absorbedState
  rw [halloc, pure_bind]
  dsimp only
  rw [Proofs.Lyra2.nBlocksInput_ok p (by omega), pure_bind]
  refine Sat.returns (Sat.bind (Proofs.Lyra2.writeInput_ok p k T R C pwd salt hM hin) fun m hm => ?_)
  have hin' : 8 * nBlocks (pwd.length + salt.length) ≤ 12 * (R.toNat * C.toNat) := hin
  rw [Proofs.Lyra2.absorbInput_ok hm hin' (by unfold nBlocks; omega), Proofs.Sponge.init_eq]
  exact .pure rfl

/-- **C09** (with C46: what `absorbed` returns is all that the sponge sees of the input) The state after absorbing the input is
reached from the initial state by absorbing the words of `absorbed`, eight at a time. -/
theorem C09_absorbed_state (p : Profile) (k T R C : U64) (pwd salt : List U8) (h : Accepts k pwd.length salt.length T R C) :
    ∃ ws, (absorbed p k pwd salt T R C).Returns ws ∧ ws.length % 8 = 0 ∧
      (absorbedState p k pwd salt T R C).Returns (Spec.Lyra2.absorbInput ws (ws.length / 8) start) := by
  refine ⟨_, absorbed_eq p k T R C pwd salt h, ?_, ?_⟩
  · rw [Proofs.Lyra2.crateWords_length]; omega
  · rw [Proofs.Lyra2.crateWords_length, Nat.mul_div_cancel_left _ (by decide)]
    exact absorbedState_eq p k T R C pwd salt h

example : Accepts 32 80 80 1 8 8 := by unfold Accepts isizeMax; decide

theorem wordAt_late (a b : List U8) (t : List U64) (i : Nat) (h : a.length / 8 + b.length / 8 ≤ i) :
    wordAt (words64 a ++ (words64 b ++ t)) i = wordAt t (i - a.length / 8 - b.length / 8) := by
  have ha := Proofs.Bytes.words64_length a
  have hb := Proofs.Bytes.words64_length b
  rw [Proofs.Sponge.wordAt_right (by omega), Proofs.Sponge.wordAt_right (by omega), ha, hb]

theorem crateWords_late {k : Nat} {pwd salt pwd' salt' : List U8} {T R C : Nat} (hp : pwd.length = pwd'.length)
    (hs : salt.length = salt'.length) (h8 : pwd.length / 8 + salt.length / 8 ≤ 8) (i : Nat) (hi : 8 ≤ i) :
    wordAt (crateWords k pwd salt T R C) i = wordAt (crateWords k pwd' salt' T R C) i := by
  have : wordAt (Proofs.Lyra2.msgWords k pwd salt T R C ++ [0x80]) i = wordAt (Proofs.Lyra2.msgWords k pwd' salt' T R C ++ [0x80]) i := by
    unfold Proofs.Lyra2.msgWords
    rw [List.append_assoc, List.append_assoc, List.append_assoc, List.append_assoc, wordAt_late _ _ _ _ (by omega),
      wordAt_late _ _ _ _ (by omega), hp, hs]
  rw [Proofs.Lyra2.crateWords_wordAt, Proofs.Lyra2.crateWords_wordAt, this, hp, hs]

/-- **C23** (ii) If password and salt fit into the first block (64 bytes in total), calls with equal parameters and lengths
reach the same state only if password and salt agree (up to the ignored trailing bytes, C07). -/
theorem C23_first_block_injective (p : Profile) (k T R C : U64) (pwd salt pwd' salt' : List U8)
    (h : Accepts k pwd.length salt.length T R C) (hp : pwd.length = pwd'.length) (hs : salt.length = salt'.length)
    (h8 : pwd.length / 8 + salt.length / 8 ≤ 8) (t : State) (h1 : (absorbedState p k pwd salt T R C).Returns t)
    (h2 : (absorbedState p k pwd' salt' T R C).Returns t) : words64 pwd = words64 pwd' ∧ words64 salt = words64 salt' := by
  have h' : Accepts k pwd'.length salt'.length T R C := by rw [← hp, ← hs]; exact h
  have e1 := Res.pure_inj ((absorbedState_eq p k T R C pwd salt h).symm.trans h1)
  have e2 := Res.pure_inj ((absorbedState_eq p k T R C pwd' salt' h').symm.trans h2)
  rw [← hp, ← hs] at e2
  have hlate := fun i hi => crateWords_late (k := k.toNat) (T := T.toNat) (R := R.toNat) (C := C.toNat) hp hs h8 i hi
  have hearly := Proofs.Sponge.absorbInput_inj hlate (nBlocks (pwd.length + salt.length)) (by unfold nBlocks; omega) start
    (e1.trans e2.symm)
  have hall : crateWords k.toNat pwd salt T.toNat R.toNat C.toNat = crateWords k.toNat pwd' salt' T.toNat R.toNat C.toNat := by
    have hl1 := Proofs.Lyra2.crateWords_length k.toNat pwd salt T.toNat R.toNat C.toNat
    have hl2 := Proofs.Lyra2.crateWords_length k.toNat pwd' salt' T.toNat R.toNat C.toNat
    apply List.ext_getElem (by rw [hl1, hl2, hp, hs])
    intro i hi hi'
    have := if hlt : i < 8 then hearly i hlt else hlate i (by omega)
    unfold wordAt at this
    rwa [List.getD_eq_getElem?_getD, List.getD_eq_getElem?_getD, List.getElem?_eq_getElem hi, List.getElem?_eq_getElem hi'] at this
  have hb := h.2.2.2
  unfold isizeMax at hb
  have := Proofs.Lyra2.crateWords_inj ⟨k.isLt, k.isLt⟩ ⟨T.isLt, T.isLt⟩ ⟨R.isLt, R.isLt⟩ ⟨C.isLt, C.isLt⟩
    ⟨by omega, by omega⟩ ⟨by omega, by omega⟩ hall
  exact ⟨this.2.2.2.2.2.2.1, this.2.2.2.2.2.2.2⟩

/-- **C23** (iii) As the chains call it (`pwd = salt` = a 32-byte digest): different digests reach different states. -/
theorem C23_digest_injective (p : Profile) (T R C : U64) (d d' : List U8) (hd : d.length = 32) (hd' : d'.length = 32)
    (h : Accepts 32 32 32 T R C) (t : State) (h1 : (absorbedState p 32 d d T R C).Returns t)
    (h2 : (absorbedState p 32 d' d' T R C).Returns t) : d = d' :=
  Proofs.Lyra2.words64_inj (by rw [hd]; decide) (by rw [hd']; decide)
    (C23_first_block_injective p 32 T R C d d d' d' (by rw [hd]; exact h) (by rw [hd, hd']) (by rw [hd, hd'])
      (by rw [hd]) t h1 h2).1

example : Accepts 32 32 32 1 4 4 ∧ Accepts 32 32 32 1 8 8 ∧ Accepts 32 32 32 8 8 8 := by unfold Accepts isizeMax; decide

end Props

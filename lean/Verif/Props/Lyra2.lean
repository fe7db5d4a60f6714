import Verif.Props.Defs
import Verif.Proofs.Trace
import Verif.Proofs.Lyra2Words

/-! Properties C01 - C10, C17 - C20: domain, termination, functional result. -/

namespace Props
open Rust Rust.Res Spec Spec.Lyra2 Model.Lyra2
open Model.Lyra2mod (lyra2mod)
open Proofs.Lyra2 (toNat_ofNat64 lyra2_ok lyra2_post lyra2mod_ok lyra2mod_post)

theorem domain_iff {k T R C : U64} {a b : Nat} :
    Domain k.toNat a b T.toNat R.toNat C.toNat ↔ Accepts k a b T R C := by
  unfold Accepts isizeMax
  constructor
  · rintro ⟨h1, h2, h3, h4, h5⟩; exact ⟨h1, h2, h3, by omega, h5⟩
  · rintro ⟨h1, h2, h3, h4, h5⟩; exact ⟨h1, h2, h3, by omega, h5⟩

/-! ## C01 -/

/-- **C01** With overflow checks, `lyra2` returns exactly on `Accepts`, panics on everything else, never runs forever. -/
theorem C01_lyra2_domain (k T R C : U64) (pwd salt : List U8) :
    ((∃ out, (lyra2 .debug k pwd salt T R C).Returns out) ↔ Accepts k pwd.length salt.length T R C) ∧
    (¬ Accepts k pwd.length salt.length T R C → (lyra2 .debug k pwd salt T R C).Panics) ∧
    ¬ (lyra2 .debug k pwd salt T R C).Diverges := by
  have hpost := lyra2_post .debug k T R C pwd salt
  refine ⟨⟨?_, fun h => ⟨_, lyra2_ok .debug k T R C pwd salt (domain_iff.2 h)⟩⟩, fun h => ?_, hpost.not_diverges⟩
  · rintro ⟨out, hout⟩
    exact domain_iff.1 ((hpost.of_eq_pure hout).2.2.2.2 (.inl rfl))
  · exact (hpost.mono fun out ho => h (domain_iff.1 (ho.2.2.2.2 (.inl rfl)))).panics

/-- Both sides of C01 are inhabited: the parameters of Lyra2REv2 with 32-byte input are accepted; 97 bytes of output,
no column, or 72 bytes of input for a 3 x 1 matrix are not. -/
example : Accepts 32 32 32 1 4 4 := by unfold Accepts isizeMax; decide
example : ¬ Accepts 97 32 32 1 4 4 ∧ ¬ Accepts 32 0 0 1 4 0 ∧ Accepts 32 100 71 1 3 1 ∧ ¬ Accepts 32 160 160 1 3 1 := by
  unfold Accepts isizeMax; decide

/-! ## C02 -/

/-- **C02** The documented panics happen, in every profile, whatever the other arguments. -/
theorem C02_documented_panics (p : Profile) (k T R C : U64) (pwd salt : List U8) (h : T.toNat < 1 ∨ R.toNat < 3) :
    (lyra2 p k pwd salt T R C) = throw .explicit ∧ (lyra2mod p k pwd salt T R C) = throw .explicit := by
  constructor
  · rw [Proofs.Lyra2.lyra2_front]
    by_cases hT : T.toNat < 1
    · rw [if_pos hT]; rfl
    · rw [if_neg hT, if_pos (by omega)]; rfl
  · rw [Proofs.Lyra2.lyra2mod_front]
    by_cases hT : T.toNat < 1
    · rw [if_pos hT]; rfl
    · rw [if_neg hT, if_pos (by omega)]; rfl

example : (lyra2 .release 32 [1, 2, 3] [4] 0 4 4).Panics := ⟨_, (C02_documented_panics _ _ _ _ _ _ _ (.inl (by decide))).1⟩
example : (lyra2 .debug 32 [1, 2, 3] [4] 1 2 4).Panics := ⟨_, (C02_documented_panics _ _ _ _ _ _ _ (.inr (by decide))).1⟩

/-! ## C03 -/

theorem runPost_length {p : Profile} {k T R C : U64} {a b : Nat} {out : List U8}
    (h : Proofs.Lyra2.RunPost p k a b T R C out) : out.length = k.toNat ∧ k.toNat ≤ 96 := by
  obtain ⟨-, -, hk, ⟨s, rfl⟩, -⟩ := h
  rw [List.length_take, Proofs.Lyra2.rateBytes_length]
  omega

/-- **C03** A returned key has exactly `k` bytes, and `k` is at most 96; for every profile and all arguments. -/
theorem C03_output_length (p : Profile) (k T R C : U64) (pwd salt out : List U8)
    (h : (lyra2 p k pwd salt T R C).Returns out) : out.length = k.toNat ∧ k.toNat ≤ 96 :=
  runPost_length ((lyra2_post p k T R C pwd salt).of_eq_pure h)

example : ∃ out, (lyra2 .release 57 [1, 2, 3] [4] 2 5 1).Returns out ∧ out.length = 57 := by
  have h := lyra2_ok .release 57 2 5 1 [1, 2, 3] [4] (domain_iff.2 (by unfold Accepts isizeMax; decide))
  exact ⟨_, h, (C03_output_length _ _ _ _ _ _ _ _ h).1⟩

/-! ## C04 -/

/-- **C04** (i) No call runs forever: any profile, any arguments. -/
theorem C04_never_diverges (p : Profile) (k T R C : U64) (pwd salt : List U8) :
    ¬ (lyra2 p k pwd salt T R C).Diverges ∧ ¬ (lyra2mod p k pwd salt T R C).Diverges :=
  ⟨(lyra2_post p k T R C pwd salt).not_diverges, (lyra2mod_post p k T R C pwd salt).not_diverges⟩

theorem Shape.bound {R C : U64} (h : Shape R C) : 12 * (R.toNat * C.toNat) < 2 ^ 60 := by
  have := h.memory; unfold isizeMax at this; omega

theorem Shape.rows_lt {R C : U64} (h : Shape R C) : R.toNat < 2 ^ 60 :=
  (Proofs.Lyra2.bounds h.bound (show 0 < R.toNat from Nat.lt_of_lt_of_le (by decide) h.rows) h.cols).2.2.2.2.1

theorem ofNat_toNat64 (x : U64) : BitVec.ofNat 64 x.toNat = x := by rw [BitVec.ofNat_toNat, BitVec.setWidth_eq]

theorem PassStart.repW {R C : U64} {v : WanderVars} (h : PassStart R C v) :
    ∃ V, Proofs.Lyra2.RepW R.toNat C.toNat v 0 V := by
  obtain ⟨M, hM⟩ := Proofs.Lyra2.Rep.of_size h.size
  exact ⟨⟨v.state, M, v.prev.toNat, v.rowa.toNat, 0⟩, rfl, hM, (ofNat_toNat64 _).symm, h.prev, h.row, (ofNat_toNat64 _).symm,
    h.rowa⟩

theorem repW_passStart {R C : U64} {v : WanderVars} {V : Wander} (hR : R.toNat < 2 ^ 60)
    (h : Proofs.Lyra2.RepW R.toNat C.toNat v 0 V) : PassStart R C v :=
  ⟨h.m.1, h.row, by rw [h.prev, toNat_ofNat64 (by have := h.prev_lt; omega)]; exact h.prev_lt,
    by rw [h.rowa, toNat_ofNat64 (by have := h.rowa_lt; omega)]; exact h.rowa_lt⟩

theorem shape_trace (p : Profile) {R C : U64} (hs : Shape R C) (τ : Nat) {v : WanderVars} (hv : PassStart R C v) :
    ∃ step vs w, (wanderStep p R τ).Returns step ∧ Rounds (wanderBody p R C (rowLen C) step) (v :: vs) w ∧
      (v :: vs).map WanderVars.row = (Order.mask R.toNat τ).map (BitVec.ofNat 64) ∧
      (∀ u ∈ v :: vs, ∃ y U, y < R.toNat ∧ Proofs.Lyra2.RepW R.toNat C.toNat u y U) ∧ PassStart R C w := by
  obtain ⟨V, hV⟩ := hv.repW
  have hstep := Proofs.Lyra2.wanderStep_ok p hs.rows hs.rows_lt τ
  obtain ⟨vs, w, h1, h2, h3, h4⟩ := Proofs.Lyra2.lyra2_trace p hs.bound hs.rows hs.cols τ hV
  rw [ofNat_toNat64] at hstep h1
  rw [ofNat_toNat64] at h1
  exact ⟨_, vs, w, hstep, h1, h2, h3, repW_passStart hs.rows_lt h4⟩

/-- **C04** (ii) Every pass, from any state and any matrix content, ends after at most `n_rows` rounds, whatever the row
count; and leaves a state from which the next pass can start. -/
theorem C04_pass_rounds (p : Profile) (R C : U64) (hs : Shape R C) (τ : Nat) (v : WanderVars) (hv : PassStart R C v) :
    ∃ step vs w, (wanderStep p R τ).Returns step ∧ Rounds (wanderBody p R C (rowLen C) step) (v :: vs) w ∧
      (v :: vs).length ≤ R.toNat ∧ (loop (wanderBody p R C (rowLen C) step) v).Returns w ∧ PassStart R C w := by
  obtain ⟨step, vs, w, h1, h2, h3, -, h5⟩ := shape_trace p hs τ hv
  refine ⟨step, vs, w, h1, h2, ?_, Proofs.Lyra2.Rounds.loop h2 _ _ rfl, h5⟩
  have := congrArg List.length h3
  rw [List.length_map, List.length_map] at this
  rw [this]
  exact Proofs.Lyra2.orbit_length _ _ _

/-- The hypotheses of C04 (ii) are met, for instance with 7 rows (not a power of two). -/
example : Shape 7 2 ∧ PassStart 7 2
    { state := Vector.replicate 16 5, m := Array.replicate 168 9, prev := 6, row := 0, rowa := 3 } :=
  ⟨⟨by decide, by decide, by unfold isizeMax; decide⟩, by simp, rfl, by decide, by decide⟩

/-! ## C05, C06 -/

/-- **C05** For complete words of password and salt and a power of two of rows, `lyra2` is the reference Lyra2. -/
theorem C05_lyra2_reference (p : Profile) (k T R C : U64) (pwd salt : List U8)
    (h : Accepts k pwd.length salt.length T R C) (hp : 8 ∣ pwd.length) (hs : 8 ∣ salt.length)
    (hR : ∃ j, R.toNat = 2 ^ j) :
    (lyra2 p k pwd salt T R C).Returns (reference k.toNat pwd salt T.toNat R.toNat C.toNat) := by
  obtain ⟨j, hj⟩ := hR
  have hj1 : 1 ≤ j := by
    by_contra hc
    have : j = 0 := by omega
    subst this
    have := h.2.1
    omega
  have := lyra2_ok p k T R C pwd salt (domain_iff.2 h)
  unfold Returns
  rw [this]
  unfold masked reference
  rw [Proofs.Lyra2.refWords_eq _ _ _ _ _ _ (Nat.mod_eq_zero_of_dvd hp) (Nat.mod_eq_zero_of_dvd hs), hj,
    Proofs.Lyra2.mask_eq_reference hj1, Proofs.Lyra2.pick_eq_reference]

example (digest : List U8) (h : digest.length = 32) :
    (lyra2 .release 32 digest digest 1 4 4).Returns (reference 32 digest digest 1 4 4) :=
  C05_lyra2_reference .release 32 1 4 4 digest digest (by rw [h]; unfold Accepts isizeMax; decide) (by rw [h]; decide)
    (by rw [h]; decide) ⟨2, rfl⟩

/-- **C06** On every accepted call the result is Lyra2 run on the complete words of password and salt, the basil with the
true lengths and the padding, with rows reduced by bit mask. -/
theorem C06_lyra2_result (p : Profile) (k T R C : U64) (pwd salt : List U8)
    (h : Accepts k pwd.length salt.length T R C) :
    (lyra2 p k pwd salt T R C).Returns (masked k.toNat pwd salt T.toNat R.toNat C.toNat) :=
  lyra2_ok p k T R C pwd salt (domain_iff.2 h)

example : (lyra2 .debug 24 [1, 2, 3] [4, 5, 6, 7, 8, 9, 10, 11, 12] 3 5 2).Returns
    (masked 24 [1, 2, 3] [4, 5, 6, 7, 8, 9, 10, 11, 12] 3 5 2) :=
  C06_lyra2_result .debug 24 3 5 2 _ _ (by unfold Accepts isizeMax; decide)

/-! ## C07, C08 -/

/-- **C07** The incomplete last words `t` of the password and `u` of the salt do not matter: same outcome (value or
panic) with any other bytes in their place; all arguments, both profiles. -/
theorem C07_trailing_ignored (p : Profile) (k T R C : U64) (w t t' x u u' : List U8)
    (hw : 8 ∣ w.length) (ht : t.length < 8) (ht' : t'.length = t.length)
    (hx : 8 ∣ x.length) (hu : u.length < 8) (hu' : u'.length = u.length) :
    lyra2 p k (w ++ t) (x ++ u) T R C = lyra2 p k (w ++ t') (x ++ u') T R C ∧
    lyra2mod p k (w ++ t) (x ++ u) T R C = lyra2mod p k (w ++ t') (x ++ u') T R C := by
  have h1 : (w ++ t).length = (w ++ t').length := by rw [List.length_append, List.length_append, ht']
  have h2 : (x ++ u).length = (x ++ u').length := by rw [List.length_append, List.length_append, hu']
  have h3 := Proofs.Lyra2.words64_trailing w t t' (Nat.mod_eq_zero_of_dvd hw) ht (by omega)
  have h4 := Proofs.Lyra2.words64_trailing x u u' (Nat.mod_eq_zero_of_dvd hx) hu (by omega)
  exact ⟨Proofs.Lyra2.lyra2_congr p k h1 h2 h3 h4 T R C, Proofs.Lyra2.lyra2mod_congr p k h1 h2 h3 h4 T R C⟩

/-- Two different passwords with one key. -/
example : ∃ out, (lyra2 .release 32 [1, 2, 3, 4, 5, 6, 7, 8, 100] [] 1 4 4).Returns out ∧
    (lyra2 .release 32 [1, 2, 3, 4, 5, 6, 7, 8, 200] [] 1 4 4).Returns out := by
  have h := C06_lyra2_result .release 32 1 4 4 [1, 2, 3, 4, 5, 6, 7, 8, 100] [] (by unfold Accepts isizeMax; decide)
  refine ⟨_, h, ?_⟩
  have := (C07_trailing_ignored .release 32 1 4 4 [1, 2, 3, 4, 5, 6, 7, 8] [100] [200] [] [] [] (by decide) (by decide) rfl
    (by decide) (by decide) rfl).1
  exact this.symm.trans h

/-- **C08** `lyra2::sum` returns one and the same 32 bytes for all inputs of a given length below 8. -/
theorem C08_sum_short_collide (p : Profile) (a b : List U8) (h : a.length = b.length) (h8 : a.length < 8) :
    ∃ out, (sum p a).Returns out ∧ (sum p b).Returns out ∧ out.length = 32 := by
  have ha : Accepts 32 a.length a.length 1 4 4 := by
    unfold Accepts isizeMax
    refine ⟨by decide, by decide, by decide, by decide, ?_⟩
    have : (4 : U64).toNat = 4 := rfl
    rw [this]; omega
  have h1 := C06_lyra2_result p 32 1 4 4 a a ha
  have h2 := (C07_trailing_ignored p 32 1 4 4 [] a b [] a b (by simp) h8 h.symm (by simp) h8 h.symm).1
  exact ⟨_, h1, h2.symm.trans h1, (C03_output_length _ _ _ _ _ _ _ _ h1).1⟩

/-- `sum("abc") = sum("xyz")`. -/
example : ∃ out, (sum .release [97, 98, 99]).Returns out ∧ (sum .release [120, 121, 122]).Returns out ∧ out.length = 32 :=
  C08_sum_short_collide _ _ _ rfl (by decide)

/-! ## C09 -/

/-- What a call absorbs first: the 8-word blocks read from the matrix after the input has been written to it
(src/lyra2.rs:272-339). -/
def absorbed (p : Profile) (k : U64) (pwd salt : List U8) (T R C : U64) : Res (List U64) := do
  let (_, m) ← allocMatrix p R C
  let n ← nBlocksInput p pwd.length salt.length
  let m ← writeInput p k pwd salt T R C n m
  pure (m.toList.take (8 * n.toNat))

theorem absorbed_eq (p : Profile) (k T R C : U64) (pwd salt : List U8) (h : Accepts k pwd.length salt.length T R C) :
    absorbed p k pwd salt T R C = pure (crateWords k.toNat pwd salt T.toNat R.toNat C.toNat) := by
  have hC := Proofs.Lyra2.Domain.cols (domain_iff.2 h)
  obtain ⟨hT, hR, hk, hmem, hin⟩ := h
  have hM : 12 * (R.toNat * C.toNat) < 2 ^ 60 := by unfold isizeMax at hmem; omega
  have halloc := Proofs.Lyra2.allocMatrix_ok p (show 0 < R.toNat by omega) hM hC
  rw [ofNat_toNat64, ofNat_toNat64] at halloc
  unfold absorbed
  rw [halloc, pure_bind]
  dsimp only
  rw [Proofs.Lyra2.nBlocksInput_ok p (by omega), pure_bind]
  refine Sat.returns (Sat.bind (Proofs.Lyra2.writeInput_ok p k T R C pwd salt hM hin) fun m hm => .pure ?_)
  have hlen := Proofs.Lyra2.crateWords_length k.toNat pwd salt T.toNat R.toNat C.toNat
  rw [toNat_ofNat64 (by unfold nBlocks; omega)]
  have hin' : 8 * nBlocks (pwd.length + salt.length) ≤ 12 * (R.toNat * C.toNat) := hin
  apply List.ext_getElem?
  intro i
  rw [List.getElem?_take]
  split
  · next hi =>
    rw [Array.getElem?_toList, hm.2 i (by omega)]
    unfold wordAt
    rw [List.getD_eq_getElem?_getD, List.getElem?_eq_getElem (by omega)]; rfl
  · next hi => rw [List.getElem?_eq_none (by omega)]

/-- **C09** Two accepted calls absorb the same words exactly if they agree on `k`, the lengths, `time_cost`, `n_rows`,
`n_cols` and the complete words of password and salt. -/
theorem C09_absorbed_injective (p : Profile) (k T R C k' T' R' C' : U64) (pwd salt pwd' salt' : List U8)
    (h : Accepts k pwd.length salt.length T R C) (h' : Accepts k' pwd'.length salt'.length T' R' C') :
    (∃ ws, (absorbed p k pwd salt T R C).Returns ws ∧ (absorbed p k' pwd' salt' T' R' C').Returns ws) ↔
      (k = k' ∧ T = T' ∧ R = R' ∧ C = C' ∧ pwd.length = pwd'.length ∧ salt.length = salt'.length ∧
        words64 pwd = words64 pwd' ∧ words64 salt = words64 salt') := by
  have e := absorbed_eq p k T R C pwd salt h
  have e' := absorbed_eq p k' T' R' C' pwd' salt' h'
  obtain ⟨-, -, -, hm, hi⟩ := h
  obtain ⟨-, -, -, hm', hi'⟩ := h'
  unfold isizeMax at hm hm'
  constructor
  · rintro ⟨ws, h1, h2⟩
    have h3 := Res.pure_inj (e.symm.trans h1)
    have h4 := Res.pure_inj (e'.symm.trans h2)
    obtain ⟨a1, a2, a3, a4, a5, a6, a7, a8⟩ := Proofs.Lyra2.crateWords_inj ⟨k.isLt, k'.isLt⟩ ⟨T.isLt, T'.isLt⟩ ⟨R.isLt, R'.isLt⟩
      ⟨C.isLt, C'.isLt⟩ ⟨by omega, by omega⟩ ⟨by omega, by omega⟩ (h3.trans h4.symm)
    exact ⟨BitVec.eq_of_toNat_eq a1, BitVec.eq_of_toNat_eq a2, BitVec.eq_of_toNat_eq a3, BitVec.eq_of_toNat_eq a4, a5, a6, a7, a8⟩
  · rintro ⟨rfl, rfl, rfl, rfl, a5, a6, a7, a8⟩
    exact ⟨_, e, by rw [Proofs.Lyra2.crateWords_congr a5 a6 a7 a8]; exact e'⟩

/-- **C09** for lengths that are multiples of 8: different arguments never absorb the same words. -/
theorem C09_absorbed_determines (p : Profile) (k T R C k' T' R' C' : U64) (pwd salt pwd' salt' : List U8)
    (h : Accepts k pwd.length salt.length T R C) (h' : Accepts k' pwd'.length salt'.length T' R' C')
    (hp : 8 ∣ pwd.length) (hs : 8 ∣ salt.length) (hp' : 8 ∣ pwd'.length) (hs' : 8 ∣ salt'.length) (ws : List U64)
    (hw : (absorbed p k pwd salt T R C).Returns ws) (hw' : (absorbed p k' pwd' salt' T' R' C').Returns ws) :
    k = k' ∧ pwd = pwd' ∧ salt = salt' ∧ T = T' ∧ R = R' ∧ C = C' := by
  obtain ⟨a1, a2, a3, a4, -, -, a7, a8⟩ := (C09_absorbed_injective p k T R C k' T' R' C' pwd salt pwd' salt' h h').1 ⟨ws, hw, hw'⟩
  exact ⟨a1, Proofs.Lyra2.words64_inj hp hp' a7, Proofs.Lyra2.words64_inj hs hs' a8, a2, a3, a4⟩

/-- The boundary between password and salt matters. -/
example : ¬ ∃ ws, (absorbed .debug 32 [1, 2, 3, 4, 5, 6, 7, 8] [] 1 4 4).Returns ws ∧
    (absorbed .debug 32 [] [1, 2, 3, 4, 5, 6, 7, 8] 1 4 4).Returns ws := by
  rintro ⟨ws, h1, h2⟩
  have := C09_absorbed_determines .debug 32 1 4 4 32 1 4 4 _ _ _ _ (by unfold Accepts isizeMax; decide)
    (by unfold Accepts isizeMax; decide) (by decide) (by decide) (by decide) (by decide) ws h1 h2
  exact absurd this.2.1 (by decide)

/-! ## C10 -/

/-- **C10** (i) A value returned with overflow checks is also returned without. -/
theorem C10_release_extends_debug (k T R C : U64) (pwd salt out : List U8)
    (h : (lyra2 .debug k pwd salt T R C).Returns out) : (lyra2 .release k pwd salt T R C).Returns out := by
  have hd := ((lyra2_post .debug k T R C pwd salt).of_eq_pure h).2.2.2.2 (.inl rfl)
  have h1 := lyra2_ok .debug k T R C pwd salt hd
  unfold Returns at h ⊢
  rw [lyra2_ok .release k T R C pwd salt hd, ← h1, h]

/-- **C10** (ii) For `n_rows < 2^63` both builds return the same value or both panic. -/
theorem C10_profiles_agree (k T R C : U64) (pwd salt : List U8) (hR : R.toNat < 2 ^ 63) :
    (∃ out, (lyra2 .debug k pwd salt T R C).Returns out ∧ (lyra2 .release k pwd salt T R C).Returns out) ∨
    ((lyra2 .debug k pwd salt T R C).Panics ∧ (lyra2 .release k pwd salt T R C).Panics) := by
  by_cases hd : Domain k.toNat pwd.length salt.length T.toNat R.toNat C.toNat
  · exact .inl ⟨_, lyra2_ok .debug k T R C pwd salt hd, lyra2_ok .release k T R C pwd salt hd⟩
  · exact .inr ⟨((lyra2_post .debug k T R C pwd salt).mono fun out ho => hd (ho.2.2.2.2 (.inl rfl))).panics,
      ((lyra2_post .release k T R C pwd salt).mono fun out ho => hd (ho.2.2.2.2 (.inr hR))).panics⟩

example : ∃ out, (lyra2 .debug 8 [] [] 1 3 1).Returns out ∧ (lyra2 .release 8 [] [] 1 3 1).Returns out := by
  obtain ⟨out, h⟩ := (C01_lyra2_domain 8 1 3 1 [] []).1.2 (by unfold Accepts isizeMax; decide)
  exact ⟨out, h, C10_release_extends_debug _ _ _ _ _ _ _ h⟩
example : (lyra2 .release 97 [] [] 1 4 4).Panics := by
  rcases C10_profiles_agree 97 1 4 4 [] [] (by decide) with ⟨out, h, -⟩ | h
  · exact absurd (C03_output_length _ _ _ _ _ _ _ _ h).2 (by decide)
  · exact h.2

/-! ## C17, C18 -/

theorem accepts_sum (n : Nat) : Accepts 32 n n 1 4 4 ↔ n ≤ 743 := by
  unfold Accepts isizeMax
  have h4 : (4 : U64).toNat = 4 := rfl
  have h1 : (1 : U64).toNat = 1 := rfl
  have h32 : (32 : U64).toNat = 32 := rfl
  rw [h4, h1, h32]
  omega

/-- **C17** `lyra2::sum` returns 32 bytes for at most 743 bytes of input and panics beyond, in every profile. -/
theorem C17_sum_domain (p : Profile) (input : List U8) :
    (input.length ≤ 743 → ∃ out, (sum p input).Returns out ∧ out.length = 32) ∧
    (743 < input.length → (sum p input).Panics) := by
  constructor
  · intro h
    have := C06_lyra2_result p 32 1 4 4 input input ((accepts_sum _).2 h)
    exact ⟨_, this, (C03_output_length _ _ _ _ _ _ _ _ this).1⟩
  · intro h
    refine ((lyra2_post p 32 1 4 4 input input).mono fun out ho => ?_).panics
    have := (accepts_sum _).1 (domain_iff.1 (ho.2.2.2.2 (.inr (by decide))))
    omega

example : (sum .release (List.replicate 744 0)).Panics := (C17_sum_domain _ _).2 (by rw [List.length_replicate]; decide)
example : ∃ out, (sum .release (List.replicate 743 0)).Returns out ∧ out.length = 32 := (C17_sum_domain _ _).1 (by rw [List.length_replicate])

/-- **C18** (i) Squeezing `k ≤ 96` bytes gives the first `k` bytes of the little-endian words 0 to 11 of the state;
squeezing more panics. -/
theorem C18_squeeze (p : Profile) (s : State) (k : U64) :
    (k.toNat ≤ 96 → (Model.Lyra2.squeeze p s k).Returns (((s.toList.take 12).flatMap fun w => leBytes 8 w.toNat).take k.toNat)) ∧
    (96 < k.toNat → (Model.Lyra2.squeeze p s k).Panics) := by
  refine ⟨fun h => ?_, Proofs.Lyra2.squeeze_panics p s⟩
  have := Proofs.Lyra2.squeeze_ok p s h
  rw [ofNat_toNat64] at this
  unfold Returns
  rw [this]
  congr 3
  funext w
  exact Proofs.Bytes.toLeBytes64_eq w

/-- **C18** (ii) Every call with `k > 96` panics, in every profile, although the documentation does not say so. -/
theorem C18_long_key_panics (p : Profile) (k T R C : U64) (pwd salt : List U8) (h : 96 < k.toNat) :
    (lyra2 p k pwd salt T R C).Panics :=
  ((lyra2_post p k T R C pwd salt).mono fun out ho => absurd ho.2.2.1 (by omega)).panics

/-- A call that would be accepted with `k = 96`. -/
example : Accepts 96 32 32 1 8 8 ∧ (lyra2 .debug 97 (List.replicate 32 0) (List.replicate 32 0) 1 8 8).Panics :=
  ⟨by unfold Accepts isizeMax; decide, C18_long_key_panics _ _ _ _ _ _ _ (by decide)⟩

/-! ## C19, C20 -/

/-- **C19** `lyra2mod` has the domain of `lyra2`, never diverges, and returns `k` bytes. -/
theorem C19_lyra2mod_domain (k T R C : U64) (pwd salt : List U8) :
    ((∃ out, (lyra2mod .debug k pwd salt T R C).Returns out) ↔ Accepts k pwd.length salt.length T R C) ∧
    (¬ Accepts k pwd.length salt.length T R C → (lyra2mod .debug k pwd salt T R C).Panics) ∧
    (∀ p, ¬ (lyra2mod p k pwd salt T R C).Diverges) ∧
    (∀ p out, (lyra2mod p k pwd salt T R C).Returns out → out.length = k.toNat ∧ k.toNat ≤ 96) := by
  have hpost := lyra2mod_post .debug k T R C pwd salt
  refine ⟨⟨?_, fun h => ⟨_, lyra2mod_ok .debug k T R C pwd salt (domain_iff.2 h)⟩⟩, fun h => ?_,
    fun p => (lyra2mod_post p k T R C pwd salt).not_diverges, fun p out h => ?_⟩
  · rintro ⟨out, hout⟩
    exact domain_iff.1 ((hpost.of_eq_pure hout).2.2.2.2 (.inl rfl))
  · exact (hpost.mono fun out ho => h (domain_iff.1 (ho.2.2.2.2 (.inl rfl)))).panics
  · exact runPost_length ((lyra2mod_post p k T R C pwd salt).of_eq_pure h)

/-- **C19** in both profiles for `n_rows < 2^63`: same value or both panic. -/
theorem C19_lyra2mod_profiles_agree (k T R C : U64) (pwd salt : List U8) (hR : R.toNat < 2 ^ 63) :
    (∃ out, (lyra2mod .debug k pwd salt T R C).Returns out ∧ (lyra2mod .release k pwd salt T R C).Returns out) ∨
    ((lyra2mod .debug k pwd salt T R C).Panics ∧ (lyra2mod .release k pwd salt T R C).Panics) := by
  by_cases hd : Domain k.toNat pwd.length salt.length T.toNat R.toNat C.toNat
  · exact .inl ⟨_, lyra2mod_ok .debug k T R C pwd salt hd, lyra2mod_ok .release k T R C pwd salt hd⟩
  · exact .inr ⟨((lyra2mod_post .debug k T R C pwd salt).mono fun out ho => hd (ho.2.2.2.2 (.inl rfl))).panics,
      ((lyra2mod_post .release k T R C pwd salt).mono fun out ho => hd (ho.2.2.2.2 (.inr hR))).panics⟩

example : ∃ out, (lyra2mod .debug 40 [7] [8, 9] 2 6 3).Returns out ∧ out.length = 40 := by
  obtain ⟨out, h⟩ := (C19_lyra2mod_domain 40 2 6 3 [7] [8, 9]).1.2 (by unfold Accepts isizeMax; decide)
  exact ⟨out, h, ((C19_lyra2mod_domain 40 2 6 3 [7] [8, 9]).2.2.2 _ _ h).1⟩

/-- **C20** (i) On every accepted call `lyra2mod` is Lyra2 with the `row*` rule `index := state[index mod 16];
row* := state[index mod 16] AND (n_rows - 1)`. -/
theorem C20_lyra2mod_result (p : Profile) (k T R C : U64) (pwd salt : List U8)
    (h : Accepts k pwd.length salt.length T R C) :
    (lyra2mod p k pwd salt T R C).Returns (rev3Masked k.toNat pwd salt T.toNat R.toNat C.toNat) :=
  lyra2mod_ok p k T R C pwd salt (domain_iff.2 h)

/-- **C20** (ii) For complete words and a power of two of rows: with reference padding and row order. -/
theorem C20_lyra2mod_rev3 (p : Profile) (k T R C : U64) (pwd salt : List U8)
    (h : Accepts k pwd.length salt.length T R C) (hp : 8 ∣ pwd.length) (hs : 8 ∣ salt.length)
    (hR : ∃ j, R.toNat = 2 ^ j) :
    (lyra2mod p k pwd salt T R C).Returns (rev3 k.toNat pwd salt T.toNat R.toNat C.toNat) := by
  obtain ⟨j, hj⟩ := hR
  have hj1 : 1 ≤ j := by
    by_contra hc
    have : j = 0 := by omega
    subst this
    have := h.2.1
    omega
  have := lyra2mod_ok p k T R C pwd salt (domain_iff.2 h)
  unfold Returns
  rw [this]
  unfold rev3Masked rev3
  rw [Proofs.Lyra2.refWords_eq _ _ _ _ _ _ (Nat.mod_eq_zero_of_dvd hp) (Nat.mod_eq_zero_of_dvd hs), hj,
    Proofs.Lyra2.mask_eq_reference hj1]

example (digest : List U8) (h : digest.length = 32) :
    (lyra2mod .release 32 digest digest 1 4 4).Returns (rev3 32 digest digest 1 4 4) :=
  C20_lyra2mod_rev3 .release 32 1 4 4 digest digest (by rw [h]; unfold Accepts isizeMax; decide) (by rw [h]; decide)
    (by rw [h]; decide) ⟨2, rfl⟩

end Props

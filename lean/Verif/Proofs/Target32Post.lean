import Verif.Proofs.Target32

/-! What can be said about every run with 32-bit `usize`: as `Lyra2Post` and `Lyra2Total`. -/

namespace Proofs.Target
open Rust Rust.Res Model.Target Spec Spec.Lyra2 Proofs.Sponge Proofs.Lyra2
open Model.Lyra2 (State Matrix SetupVars WanderVars wanderStep absorb_block BLOCKLENINT64 reduced_blake2b_lyra)

/-! ## Allocation -/

theorem allocMatrix_post (p : Profile) (R C : U64) :
    (allocMatrix 32 p R C).Post (fun x => x.1 = 12#64 * C ∧ x.2.size = (R * (12#64 * C)).toNat % 2 ^ 32 ∧
      x.2.size < 2 ^ 28) := by
  unfold allocMatrix
  refine Post.bind (imul_post' p _ _) fun l hl => ?_
  obtain ⟨rfl, -⟩ := hl
  refine Post.bind (imul_post' p _ _) fun i hi => ?_
  obtain ⟨rfl, -⟩ := hi
  unfold Model.Target.vecOf
  split
  · rename_i h
    rw [pure_bind]
    refine .pure ⟨rfl, by simp [usz]; rfl, ?_⟩
    rw [show Model.Target.isizeMax 32 = 2 ^ 31 - 1 from rfl] at h
    rw [Array.size_replicate]
    omega
  · exact .throw

theorem usizeAdd_post (p : Profile) (a b : Nat) : (Model.Target.usizeAdd 32 p a b).Post (fun _ => True) := by
  unfold Model.Target.usizeAdd
  split
  · exact .pure trivial
  · split
    · exact .throw
    · exact .pure trivial

theorem nBlocksInput_post (p : Profile) (a b : Nat) :
    (nBlocksInput 32 p a b).Post (fun n => a + b + 48 < 2 ^ 32 → n = BitVec.ofNat 64 (nBlocks (a + b))) := by
  by_cases h : a + b + 48 < 2 ^ 32
  · rw [nBlocksInput_32 p h, nBlocksInput_ok p (by omega)]; exact .pure fun _ => rfl
  · unfold nBlocksInput
    refine Post.triv (usizeAdd_post _ _ _) fun x => Post.triv (usizeAdd_post _ _ _) fun y => ?_
    exact (iadd_post _ _ _).mono fun _ _ h' => absurd h' h

theorem writeInput_post (p : Profile) (k T R C : U64) (pwd salt : List U8) (n : I64) (m : Matrix) :
    (writeInput 32 p k pwd salt T R C n m).Post (fun m' => m'.size = m.size ∧
      pwd.length / 8 + salt.length / 8 + 6 < m.size ∧ usz 32 (idiv (n * 64#64) 8#64 - 1#64) < m.size) := by
  unfold writeInput
  refine Post.bind (writeWords_post _ _ _) fun m1 h1 => ?_
  refine Post.bind (writeWords_post _ _ _) fun m2 h2 => ?_
  refine Post.bind (vset_post _ _ _) fun m3 h3 => ?_
  refine Post.bind (vset_post _ _ _) fun m4 h4 => ?_
  refine Post.bind (vset_post _ _ _) fun m5 h5 => ?_
  refine Post.bind (vset_post _ _ _) fun m6 h6 => ?_
  refine Post.bind (vset_post _ _ _) fun m7 h7 => ?_
  refine Post.bind (vset_post _ _ _) fun m8 h8 => ?_
  refine Post.bind (vset_post _ _ _) fun m9 h9 => ?_
  refine Post.bind (imul_post _ _ _) fun a ha => ?_
  subst ha
  refine Post.bind (isub_post _ _ _) fun b hb => ?_
  subst hb
  refine Post.bind (vget_post _ _) fun x hx => ?_
  refine (vset_post _ _ _).mono fun m10 h10 => ?_
  obtain ⟨h9, h9'⟩ := h9
  have e : m9.size = m.size := by omega
  refine ⟨by omega, by omega, ?_⟩
  rw [e] at hx
  exact hx

/-- A matrix of fewer than `2^28` words in which the input was written holds all its blocks. -/
theorem input_bound {a b L : Nat} (hL : L < 2 ^ 28) (h1 : a / 8 + b / 8 + 6 < L) {n : I64}
    (hn : a + b + 48 < 2 ^ 32 → n = BitVec.ofNat 64 (nBlocks (a + b))) (h2 : usz 32 (idiv (n * 64#64) 8#64 - 1#64) < L) :
    8 * nBlocks (a + b) ≤ L := by
  have hab : a + b + 48 < 2 ^ 32 := by omega
  have := hn hab
  subst this
  have hnb : nBlocks (a + b) ≤ 2 ^ 26 := by unfold nBlocks; omega
  have hnb' : 1 ≤ nBlocks (a + b) := by unfold nBlocks; omega
  generalize nBlocks (a + b) = N at *
  unfold usz at h2
  rw [show BitVec.ofNat 64 N * 64#64 = BitVec.ofNat 64 (N * 64) from (BitVec.ofNat_mul ..).symm, idiv_ofNat (by omega) (by omega)] at h2
  have : (BitVec.ofNat 64 (N * 64 / 8) - 1#64).toNat = 8 * N - 1 := by
    rw [BitVec.toNat_sub, toNat_ofNat64 (by omega)]
    simp
    omega
  omega

/-! ## Row 0 -/

/-- `squeezeRow0` needs room for one row. -/
theorem squeezeRow0_post (p : Profile) (C : U64) (s : State) (m : Matrix) (hm : m.size < 2 ^ 28) :
    (squeezeRow0 32 p C s m).Post (fun x => x.2.size = m.size ∧ 12 * C.toNat ≤ m.size) := by
  unfold squeezeRow0
  refine Post.bind (isub_post _ _ _) fun a ha => Post.bind (imul_post _ _ _) fun b hb => ?_
  subst ha hb
  -- the loop with its invariant
  have hC := C.isLt
  have hloop := forLoop_post (body := fun _ (x : State × Matrix × I64) => do
      let m ← unroll12 (fun w m => do
        let i ← iadd p x.2.2 (BitVec.ofNat 64 w)
        vset m (usz 32 i) x.1[w]) x.2.1
      let ptr := x.2.2 - BLOCKLENINT64
      let state := reduced_blake2b_lyra x.1
      pure (state, m, ptr))
    (fun j (x : State × Matrix × I64) => x.2.1.size = m.size ∧ x.2.2 = (C - 1 - BitVec.ofNat 64 j) * 12#64 ∧
      ∀ i, i < j → usz 32 ((C - 1 - BitVec.ofNat 64 i) * 12#64 + 11#64) < m.size) 0 C.toNat (s, m, (C - 1) * 12#64)
    ⟨rfl, by simp, fun i hi => absurd hi (by omega)⟩ ?_
  · refine Post.bind hloop fun x hx => ?_
    refine .pure ⟨hx.1, ?_⟩
    by_contra hlt
    have hi0 : m.size / 12 < C.toNat := by omega
    have := hx.2.2 (C.toNat - 1 - m.size / 12) (by omega)
    have e : C - 1 - BitVec.ofNat 64 (C.toNat - 1 - m.size / 12) = BitVec.ofNat 64 (m.size / 12) := by
      apply BitVec.eq_of_toNat_eq
      rw [BitVec.toNat_sub, BitVec.toNat_sub, toNat_ofNat64 (by omega)]
      simp
      omega
    rw [e, ← show BitVec.ofNat 64 12 = 12#64 from rfl, ← BitVec.ofNat_mul, ← show BitVec.ofNat 64 11 = 11#64 from rfl,
      ← BitVec.ofNat_add] at this
    unfold usz at this
    rw [toNat_ofNat64 (by omega), Nat.mod_eq_of_lt (by omega)] at this
    omega
  · rintro j ⟨s', m', ptr⟩ hj ⟨h1, h2, h3⟩
    dsimp only at h1 h2 h3 ⊢
    refine Post.bind (unroll12_size (L := m.size) (usz 32 (ptr + 11#64)) (fun w m1 hm1 => ?_) m' h1) fun m2 hm2 => ?_
    · refine Post.bind (iadd_post _ _ _) fun i hi => ?_
      subst hi
      refine (vset_post _ _ _).mono fun m3 h3 => ⟨by rw [h3.2, hm1], ?_⟩
      rintro rfl
      rw [← hm1]
      exact h3.1
    · refine .pure ⟨hm2.1, ?_, fun i hi => ?_⟩
      · subst h2
        show _ * _ - 12#64 = _
        rw [BitVec.ofNat_add]
        grind
      · by_cases e : i = j
        · subst e; rw [h2] at hm2; exact hm2.2
        · exact h3 i (by omega)

/-! ## Row 1 and the setup rows -/

theorem idxRow0_post (p : Profile) (i : U64) (w : Fin 12) : (idxRow0 32 p i w).Post (fun _ => True) := by
  unfold idxRow0
  exact Post.triv (imul_post _ _ _) fun a => Post.triv (iadd_post _ _ _) fun b => .pure trivial

theorem idxRow1Rev_post (p : Profile) (C : U64) (l : I64) (i : U64) (w : Fin 12) :
    (idxRow1Rev 32 p C l i w).Post (fun n => n = usz 32 ((C - i - 1) * 12#64 + l + BitVec.ofNat 64 w)) := by
  unfold idxRow1Rev
  refine Post.bind (usub_post _ _ _) fun a ha => Post.bind (usub_post _ _ _) fun b hb => Post.bind (imul_post _ _ _) fun c hc =>
    Post.bind (iadd_post _ _ _) fun d hd => Post.bind (iadd_post _ _ _) fun e he => .pure ?_
  subst ha hb hc hd he
  rfl

theorem idx_post (p : Profile) (l : I64) (i : U64) (r : I64) (w : Fin 12) : (idx 32 p l i r w).Post (fun _ => True) := by
  unfold idx
  exact Post.triv (imul_post _ _ _) fun a => Post.triv (imul_post _ _ _) fun b => Post.triv (iadd_post _ _ _) fun c =>
    Post.triv (iadd_post _ _ _) fun d => .pure trivial

theorem idxRev_post (p : Profile) (C : U64) (l : I64) (i : U64) (r : I64) (w : Fin 12) :
    (idxRev 32 p C l i r w).Post (fun n => n = usz 32 ((C - i - 1) * 12#64 + r * l + BitVec.ofNat 64 w)) := by
  unfold idxRev
  refine Post.bind (usub_post _ _ _) fun a ha => Post.bind (usub_post _ _ _) fun b hb => Post.bind (imul_post _ _ _) fun c hc =>
    Post.bind (imul_post _ _ _) fun c' hc' => Post.bind (iadd_post _ _ _) fun d hd => Post.bind (iadd_post _ _ _) fun e he => .pure ?_
  subst ha hb hc hc' hd he
  rfl

theorem absorbSum_post (p : Profile) (l : I64) (i : U64) (a b : I64) (m : Matrix) (s : State) :
    (absorbSum 32 p l i a b m s).Post (fun _ => True) := by
  unfold absorbSum
  refine unroll12_post (fun _ _ => True) s trivial fun j s _ => ?_
  exact Post.triv (idx_post _ _ _ _ _) fun x => Post.triv (vget_post _ _) fun x => Post.triv (idx_post _ _ _ _ _) fun x =>
    Post.triv (vget_post _ _) fun x => .pure trivial

theorem xorRotW_post (p : Profile) (l : I64) (i : U64) (a : I64) (s : State) (m : Matrix) :
    (xorRotW 32 p l i a s m).Post (fun m' => m'.size = m.size) := by
  unfold xorRotW
  refine unroll12_post (fun _ (m' : Matrix) => m'.size = m.size) m rfl fun j m' hm => ?_
  exact Post.triv (idx_post _ _ _ _ _) fun x => Post.triv (vget_post _ _) fun x => (vset_post _ _ _).mono fun m'' h => by rw [h.2, hm]

/-- Row 1 keeps the size and needs room for two rows. -/
theorem duplexRow1_post (p : Profile) (C : U64) (l : I64) (s : State) (m : Matrix) :
    (duplexRow1 32 p C l s m).Post (fun x => x.2.size = m.size ∧
      (0 < C.toNat → usz 32 ((C - BitVec.ofNat 64 0 - 1) * 12#64 + l + BitVec.ofNat 64 11) < m.size)) := by
  unfold duplexRow1
  have := forLoop_post (fun j (x : State × Matrix) => x.2.size = m.size ∧
    (0 < j → usz 32 ((C - BitVec.ofNat 64 0 - 1) * 12#64 + l + BitVec.ofNat 64 11) < m.size)) 0 C.toNat (s, m)
    ⟨rfl, fun h => absurd h (by omega)⟩ (body := fun i x => do
    let i := BitVec.ofNat 64 i
    let state ← unroll12 (fun w (state : State) => do
      let y ← vget x.2 (← idxRow0 32 p i w)
      pure (state.set w (state[w] ^^^ y))) x.1
    let state := reduced_blake2b_lyra state
    let m ← unroll12 (fun w m => do
      let y ← vget m (← idxRow0 32 p i w)
      vset m (← idxRow1Rev 32 p C l i w) (y ^^^ state[w])) x.2
    pure (state, m)) ?_
  · exact this
  · rintro j ⟨s', m'⟩ hj ⟨h1, h2⟩
    dsimp only at h1 h2 ⊢
    refine Post.triv (unroll12_post (fun _ _ => True) s' trivial fun w s _ => ?_) fun s'' => ?_
    · exact Post.triv (idxRow0_post _ _ _) fun x => Post.triv (vget_post _ _) fun x => .pure trivial
    · refine Post.bind (unroll12_size (L := m.size) (usz 32 ((C - BitVec.ofNat 64 (0 + j) - 1) * 12#64 + l + BitVec.ofNat 64 11))
        (fun w m1 hm1 => ?_) m' h1) fun m2 hm2 => ?_
      · refine Post.triv (idxRow0_post _ _ _) fun x => Post.triv (vget_post _ _) fun y =>
          Post.bind (idxRow1Rev_post _ _ _ _ _) fun n hn => ?_
        subst hn
        refine (vset_post _ _ _).mono fun m3 h3 => ⟨by rw [h3.2, hm1], ?_⟩
        rintro rfl
        rw [← hm1]
        exact h3.1
      · refine .pure ⟨hm2.1, fun _ => ?_⟩
        by_cases e : j = 0
        · subst e; exact hm2.2
        · exact h2 (by omega)

/-- A setup row keeps the size and needs room for the row it writes. -/
theorem duplexRowSetup_post (p : Profile) (C : U64) (l prev rowa row : I64) (s : State) (m : Matrix) :
    (duplexRowSetup 32 p C l prev rowa row s m).Post (fun x => x.2.size = m.size ∧
      (0 < C.toNat → usz 32 ((C - BitVec.ofNat 64 0 - 1) * 12#64 + row * l + BitVec.ofNat 64 11) < m.size)) := by
  unfold duplexRowSetup
  have := forLoop_post (fun j (x : State × Matrix) => x.2.size = m.size ∧
    (0 < j → usz 32 ((C - BitVec.ofNat 64 0 - 1) * 12#64 + row * l + BitVec.ofNat 64 11) < m.size)) 0 C.toNat (s, m)
    ⟨rfl, fun h => absurd h (by omega)⟩ (body := fun i x => do
    let i := BitVec.ofNat 64 i
    let state ← absorbSum 32 p l i prev rowa x.2 x.1
    let state := reduced_blake2b_lyra state
    let m ← unroll12 (fun w m => do
      let y ← vget m (← idx 32 p l i prev w)
      vset m (← idxRev 32 p C l i row w) (y ^^^ state[w])) x.2
    let m ← xorRotW 32 p l i rowa state m
    pure (state, m)) ?_
  · exact this
  · rintro j ⟨s', m'⟩ hj ⟨h1, h2⟩
    dsimp only at h1 h2 ⊢
    refine Post.triv (absorbSum_post _ _ _ _ _ _ _) fun s'' => ?_
    refine Post.bind (unroll12_size (L := m.size) (usz 32 ((C - BitVec.ofNat 64 (0 + j) - 1) * 12#64 + row * l + BitVec.ofNat 64 11))
        (fun w m1 hm1 => ?_) m' h1) fun m2 hm2 => ?_
    · refine Post.triv (idx_post _ _ _ _ _) fun x => Post.triv (vget_post _ _) fun y =>
          Post.bind (idxRev_post _ _ _ _ _ _) fun n hn => ?_
      subst hn
      refine (vset_post _ _ _).mono fun m3 h3 => ⟨by rw [h3.2, hm1], ?_⟩
      rintro rfl
      rw [← hm1]
      exact h3.1
    · refine Post.bind (xorRotW_post _ _ _ _ _ _) fun m3 h3 => .pure ⟨by rw [h3, hm2.1], fun _ => ?_⟩
      by_cases e : j = 0
      · subst e; exact hm2.2
      · exact h2 (by omega)

theorem setupRows_post (p : Profile) (R C : U64) (l : I64) (s : State) (m : Matrix) :
    (setupRows 32 p R C l s m).Post (fun x => x.2.1.size = m.size ∧ (0 < C.toNat → ∀ r, 2 ≤ r → r < irangeLen 2 R + 2 →
      usz 32 ((C - BitVec.ofNat 64 0 - 1) * 12#64 + BitVec.ofNat 64 r * l + BitVec.ofNat 64 11) < m.size)) := by
  unfold Model.Target.setupRows
  have := forLoop_post (fun j (x : State × Matrix × SetupVars) => x.2.1.size = m.size ∧ x.2.2.row = BitVec.ofNat 64 (2 + j) ∧
    (0 < C.toNat → ∀ r, 2 ≤ r → r < j + 2 →
      usz 32 ((C - BitVec.ofNat 64 0 - 1) * 12#64 + BitVec.ofNat 64 r * l + BitVec.ofNat 64 11) < m.size))
    2 (irangeLen 2 R) (s, m, SetupVars.start) ⟨rfl, rfl, fun _ r h1 h2 => absurd h2 (by omega)⟩ (body := fun _ x => do
      let (state, m) ← duplexRowSetup 32 p C l x.2.2.prev x.2.2.rowa x.2.2.row x.1 x.2.1
      let v ← x.2.2.next p
      pure (state, m, v)) ?_
  · exact this.mono fun x hx => ⟨hx.1, hx.2.2⟩
  · rintro j ⟨s', m', v⟩ hj ⟨h1, h2, h3⟩
    dsimp only at h1 h2 h3 ⊢
    refine Post.bind (duplexRowSetup_post _ _ _ _ _ _ _ _) fun x hx => ?_
    obtain ⟨s1, m1⟩ := x
    dsimp only at hx ⊢
    refine Post.bind (setupNext_post _ _) fun v' hv => .pure ⟨by rw [hx.1, h1], ?_, fun hC r hr1 hr2 => ?_⟩
    · rw [hv, h2, ← Nat.add_assoc, BitVec.ofNat_add (2 + j) 1]
    · by_cases e : r = 2 + j
      · subst e
        have := hx.2 hC
        rw [h2, h1] at this
        exact this
      · exact h3 hC r hr1 (by omega)

theorem front_post (p : Profile) (k T R C : U64) (pwd salt : List U8) (hR3 : 3 ≤ R.toNat) :
    (front 32 p k pwd salt T R C).Post (fun _ => R.toNat < 2 ^ 63 →
      96 * (R.toNat * C.toNat) < 2 ^ 31 ∧ 8 * nBlocks (pwd.length + salt.length) ≤ 12 * (R.toNat * C.toNat)) := by
  unfold front
  refine Post.bind (allocMatrix_post p R C) fun x hx => ?_
  obtain ⟨l, m⟩ := x
  obtain ⟨rfl, hsize, hlt⟩ := hx
  dsimp only at hsize hlt ⊢
  refine Post.bind (nBlocksInput_post _ _ _) fun n hn => ?_
  refine Post.bind (writeInput_post _ _ _ _ _ _ _ _ _) fun m1 h1 => ?_
  obtain ⟨hs1, hi1, hi2⟩ := h1
  have hin := input_bound hlt hi1 hn hi2
  have hin8 : 8 ≤ m.size := by unfold nBlocks at hin; omega
  refine Post.triv (absorbInput_post _ _ _) fun s => ?_
  refine Post.bind (squeezeRow0_post p C s m1 (by omega)) fun x hx => ?_
  obtain ⟨s2, m2⟩ := x
  obtain ⟨hs2, h12⟩ := hx
  dsimp only at hs2 ⊢
  refine Post.bind (duplexRow1_post _ _ _ _ _) fun x hx => ?_
  obtain ⟨s3, m3⟩ := x
  obtain ⟨hs3, hrow1⟩ := hx
  dsimp only at hs3 hrow1 ⊢
  refine Post.bind (setupRows_post _ _ _ _ _ _) fun x hx => ?_
  obtain ⟨s4, m4, v⟩ := x
  obtain ⟨hs4, hrows⟩ := hx
  dsimp only at hs4 hrows ⊢
  refine .pure fun hp => ?_
  have hC : 0 < C.toNat := by
    by_contra hc
    have : C = 0 := BitVec.eq_of_toNat_eq (by simp; omega)
    subst this
    have : (R * (12#64 * 0)).toNat = 0 := by simp
    have e0 : m.size = 0 := by rw [hsize, this, Nat.zero_mod]
    omega
  rw [hs1] at h12
  have hR63 : R.toNat < 2 ^ 63 := hp
  have e12 : (12#64 * C) = BitVec.ofNat 64 (12 * C.toNat) := by
    rw [BitVec.ofNat_mul]; simp
  have eC : C = BitVec.ofNat 64 C.toNat := by simp
  have key : R.toNat * (12 * C.toNat) ≤ m.size := by
    by_contra hbig
    -- the first row that does not fit
    have hr1 : m.size / (12 * C.toNat) < R.toNat := by
      rw [Nat.div_lt_iff_lt_mul (by omega)]; omega
    have hr2 : 1 ≤ m.size / (12 * C.toNat) := by
      rw [Nat.le_div_iff_mul_le (by omega)]; omega
    have hr3 : m.size / (12 * C.toNat) * (12 * C.toNat) ≤ m.size := Nat.div_mul_le_self _ _
    have hr4 : m.size < m.size / (12 * C.toNat) * (12 * C.toNat) + 12 * C.toNat := by
      have := Nat.lt_div_mul_add (a := m.size) (b := 12 * C.toNat) (by omega); omega
    generalize m.size / (12 * C.toNat) = r at *
    have hlast := lastIdx (R := R.toNat) (r := r) hC (by omega) (by omega) (by omega)
    rw [← eC] at hlast
    by_cases h1 : r = 1
    · subst h1
      have := hrow1 hC
      rw [e12, hs2, hs1] at this
      rw [BitVec.one_mul] at hlast
      unfold usz at this
      rw [hlast] at this
      omega
    · have := hrows hC r (by omega) (by
        rw [show (2 : U64) = BitVec.ofNat 64 2 from rfl]
        rw [show R = BitVec.ofNat 64 R.toNat by simp, irangeLen_ofNat (by omega) hR63]
        omega)
      unfold usz at this
      rw [e12, hlast, hs3, hs2, hs1] at this
      omega
  have heq : R.toNat * (12 * C.toNat) = m.size := by
    have h64 : R.toNat * (12 * C.toNat) < 2 ^ 64 := by omega
    rw [hsize, nat_of_bv (by omega), Nat.mod_eq_of_lt h64, Nat.mod_eq_of_lt (by omega)]
  have e : R.toNat * (12 * C.toNat) = 12 * (R.toNat * C.toNat) := by ring
  constructor <;> omega

/-! ## Wandering phase -/

theorem duplexRow_post (p : Profile) (C : U64) (l prev rowa row : I64) (s : State) (m : Matrix) :
    (duplexRow 32 p C l prev rowa row s m).Post (fun x => x.2.size = m.size) := by
  unfold duplexRow
  have := forLoop_post (fun j (x : State × Matrix) => x.2.size = m.size) 0 C.toNat (s, m) rfl (body := fun i x => do
    let i := BitVec.ofNat 64 i
    let state ← absorbSum 32 p l i prev rowa x.2 x.1
    let state := reduced_blake2b_lyra state
    let m ← unroll12 (fun w m => do
      let j ← idx 32 p l i row w
      let x ← vget m j
      vset m j (x ^^^ state[w])) x.2
    let m ← xorRotW 32 p l i rowa state m
    pure (state, m)) ?_
  · exact this
  · rintro j ⟨s', m'⟩ hj h1
    dsimp only at h1 ⊢
    refine Post.triv (absorbSum_post _ _ _ _ _ _ _) fun s'' => ?_
    refine Post.bind (unroll12_post (fun _ (m'' : Matrix) => m''.size = m.size) m' h1 fun w m1 hm1 => ?_) fun m2 hm2 => ?_
    · exact Post.triv (idx_post _ _ _ _ _) fun x => Post.triv (vget_post _ _) fun y =>
        (vset_post _ _ _).mono fun m3 h3 => by rw [h3.2, hm1]
    · exact Post.bind (xorRotW_post _ _ _ _ _ _) fun m3 h3 => .pure (by rw [h3, hm2])

theorem wanderBody_post (p : Profile) (R C : U64) (l step : I64) (v : WanderVars) :
    (wanderBody 32 p R C l step v).Post (BodyPost WanderVars.row step (R - 1#64) (fun _ => True) v) := by
  unfold wanderBody
  refine Post.triv (usub_post _ _ _) fun a => Post.triv (duplexRow_post _ _ _ _ _ _ _ _) fun x => ?_
  refine Post.bind (iadd_post _ _ _) fun b hb => Post.bind (isub_post _ _ _) fun c hc => ?_
  subst hb hc
  dsimp only
  split
  · rename_i h; exact .pure ⟨h, trivial⟩
  · rename_i h; exact .pure ⟨rfl, h, trivial⟩

theorem wander_post (p : Profile) (T R C : U64) (l : I64) (v : WanderVars) (h : v.row = 0) :
    (Model.Target.wander 32 p T R C l v).Post (fun _ => True) := by
  unfold Model.Target.wander
  refine Post.weaken (passes_post (fun v => v.row = 0) (fun τ v hv => ?_) v h)
  refine Post.triv (wanderStep_post _ _ _) fun step => ?_
  exact (pass_post WanderVars.row step (R - 1#64) (fun _ => True) (fun v _ => wanderBody_post p R C l step v) v hv trivial).mono
    fun _ h => h.1

theorem modWanderBody_post (p : Profile) (R C : U64) (l step : I64) (v : Model.Lyra2mod.WanderVars) :
    (modWanderBody 32 p R C l step v).Post
      (BodyPost Model.Lyra2mod.WanderVars.row step (R - 1#64) (fun _ => True) v) := by
  unfold modWanderBody
  refine Post.triv (aget_post _ _) fun i => Post.triv (aget_post _ _) fun i' => ?_
  refine Post.triv (usub_post _ _ _) fun a => Post.triv (duplexRow_post _ _ _ _ _ _ _ _) fun x => ?_
  refine Post.bind (iadd_post _ _ _) fun b hb => Post.bind (isub_post _ _ _) fun c hc => ?_
  subst hb hc
  dsimp only
  split
  · rename_i h; exact .pure ⟨h, trivial⟩
  · rename_i h; exact .pure ⟨rfl, h, trivial⟩

theorem modWander_post (p : Profile) (T R C : U64) (l : I64) (v : Model.Lyra2mod.WanderVars) (h : v.row = 0) :
    (modWander 32 p T R C l v).Post (fun _ => True) := by
  unfold modWander
  refine Post.weaken (passes_post (fun v => v.row = 0) (fun τ v hv => ?_) v h)
  refine Post.triv (wanderStep_post _ _ _) fun step => ?_
  exact (pass_post Model.Lyra2mod.WanderVars.row step (R - 1#64) (fun _ => True)
    (fun v _ => modWanderBody_post p R C l step v) v hv trivial).mono fun _ h => h.1

/-! ## The end -/

/-- The keys that a run with 32-bit `usize` can return. -/
def Key32 (k : U64) (out : List U8) : Prop :=
  (k.toNat ≤ 96 ∧ out.length = k.toNat) ∨
    (2 ^ 63 ≤ k.toNat ∧ k.toNat % 2 ^ 32 < 2 ^ 31 ∧ out = List.replicate (k.toNat % 2 ^ 32) 0)

theorem squeeze_post (p : Profile) (s : State) (k : U64) : (Model.Target.squeeze 32 p s k).Post (Key32 k) := by
  by_cases h : k.toNat ≤ 96
  · rw [squeeze_short (by decide) p s k h]
    refine .pure (.inl ⟨h, ?_⟩)
    rw [List.length_take, rateBytes_length]
    omega
  by_cases h' : k.toNat < 2 ^ 63
  · exact .inl (squeeze_32_panics p s k (by omega) h')
  have := squeeze_32_zeros p s k (by omega)
  split at this
  · rename_i h2
    rw [this]; exact .pure (.inr ⟨by omega, h2, rfl⟩)
  · exact .inl this

theorem wrapUp_post (p : Profile) (k : U64) (l : I64) (v : WanderVars) : (wrapUp 32 p k l v).Post (Key32 k) := by
  unfold wrapUp
  exact Post.triv (imul_post _ _ _) fun a => Post.triv (splitRight_post _ _) fun r => Post.triv (absorb12_post _ _) fun s =>
    squeeze_post p s k

/-- The conditions on the parameters, without the key length. -/
structure Domain32 (a b T R C : Nat) : Prop where
  time : 1 ≤ T
  rows : 3 ≤ R
  memory : 96 * (R * C) < 2 ^ 31
  input : 8 * nBlocks (a + b) ≤ 12 * (R * C)

/-- What holds of every run that returns `out`. -/
def RunPost32 (k : U64) (a b : Nat) (T R C : U64) (out : List U8) : Prop :=
  Key32 k out ∧ (R.toNat < 2 ^ 63 → Domain32 a b T.toNat R.toNat C.toNat)

theorem lyra2_post (p : Profile) (k T R C : U64) (pwd salt : List U8) :
    (lyra2 32 p k pwd salt T R C).Post (RunPost32 k pwd.length salt.length T R C) := by
  rw [lyra2_front]
  by_cases hT : T.toNat < 1
  · rw [if_pos hT]; exact .throw
  by_cases hR : R.toNat < 3
  · rw [if_neg hT, if_pos hR]; exact .throw
  rw [if_neg hT, if_neg hR]
  refine Post.bind (front_post p k T R C pwd salt (by omega)) fun x hx => ?_
  refine Post.triv (wander_post _ _ _ _ _ _ rfl) fun w => ?_
  refine (wrapUp_post _ _ _ _).mono fun out h => ⟨h, fun hp => ?_⟩
  exact ⟨by omega, by omega, (hx hp).1, (hx hp).2⟩

theorem lyra2mod_post (p : Profile) (k T R C : U64) (pwd salt : List U8) :
    (lyra2mod 32 p k pwd salt T R C).Post (RunPost32 k pwd.length salt.length T R C) := by
  rw [lyra2mod_front]
  by_cases hT : T.toNat < 1
  · rw [if_pos hT]; exact .throw
  by_cases hR : R.toNat < 3
  · rw [if_neg hT, if_pos hR]; exact .throw
  rw [if_neg hT, if_neg hR]
  refine Post.bind (front_post p k T R C pwd salt (by omega)) fun x hx => ?_
  refine Post.triv (modWander_post _ _ _ _ _ _ rfl) fun w => ?_
  refine (wrapUp_post _ _ _ _).mono fun out h => ⟨h, fun hp => ?_⟩
  exact ⟨by omega, by omega, (hx hp).1, (hx hp).2⟩

end Proofs.Target

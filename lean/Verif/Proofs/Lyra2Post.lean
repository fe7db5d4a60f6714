import Verif.Proofs.Lyra2Main

/-! What can be said about every run of `lyra2`, with any arguments and in either build profile: the phases never
diverge, they keep the size of the matrix, and they panic when the matrix is too small. -/

namespace Proofs.Lyra2
open Rust Rust.Res Model.Utils Model.Lyra2 Spec Spec.Lyra2 Proofs.Sponge

/-! ## Helpers -/

theorem Post.triv {α β : Type} {m : Res α} {f : α → Res β} {Q : α → Prop} {Q' : β → Prop} (h : m.Post Q)
    (hf : ∀ a, (f a).Post Q') : (m >>= f).Post Q' := Post.bind h fun a _ => hf a

theorem Post.weaken {α : Type} {m : Res α} {Q : α → Prop} (h : m.Post Q) : m.Post (fun _ => True) := h.mono fun _ _ => trivial

theorem imul_post' (p : Profile) (a b : I64) :
    (imul p a b).Post (fun c => c = a * b ∧ (p = .debug → BitVec.smulOverflow a b = false)) := by
  unfold imul
  cases p
  · cases h : BitVec.smulOverflow a b
    · exact .pure ⟨rfl, fun _ => rfl⟩
    · exact .throw
  · exact .pure ⟨rfl, fun h => by cases h⟩

theorem usizeAdd_post (p : Profile) (a b : Nat) : (usizeAdd p a b).Post (fun _ => True) := by
  unfold usizeAdd
  split
  · exact .pure trivial
  · split
    · exact .throw
    · exact .pure trivial

theorem slice_post (s : List U8) (a b : Nat) : (slice s a b).Post (fun _ => True) := by
  unfold slice; split
  · exact .pure trivial
  · exact .throw

theorem sget_post {α : Type} (s : List α) (i : Nat) : (sget s i).Post (fun _ => True) := by
  unfold sget; split
  · exact .pure trivial
  · exact .throw

theorem read64_post (s : List U8) : (read_u64_le s).Post (fun _ => True) := by
  by_cases h : 8 ≤ s.length
  · rw [Bytes.read64_ok h]; exact .pure trivial
  · exact .inl (Bytes.read64_panics (by omega))

theorem splitRight_post {α : Type} (v : Array α) (i : Nat) : (splitRight v i).Post (fun _ => True) := by
  unfold splitRight; split
  · exact .pure trivial
  · exact .throw

theorem aget_post {α : Type} {n : Nat} (v : Vector α n) (i : Nat) : (aget v i).Post (fun _ => True) := by
  unfold aget; split
  · exact .pure trivial
  · exact .throw

/-- Twelve writes keep the size and need the index of the last one to be in range. -/
theorem unroll12_size {stmt : Fin 12 → Matrix → Res Matrix} {L : Nat} (n : Nat)
    (step : ∀ (w : Fin 12) m, m.size = L → (stmt w m).Post (fun m' => m'.size = L ∧ (w = 11 → n < L))) (m : Matrix)
    (hm : m.size = L) : (unroll12 stmt m).Post (fun m' => m'.size = L ∧ n < L) := by
  have := unroll12_post (fun j m => m.size = L ∧ (j = 12 → n < L)) m ⟨hm, fun h => absurd h (by omega)⟩
    (stmt := stmt) fun w m hm => (step w m hm.1).mono fun m' h => ⟨h.1, fun e => h.2 (Fin.ext (by show w.val = 11; omega))⟩
  exact this.mono fun m' h => ⟨h.1, h.2 rfl⟩

/-! ## Allocation -/

theorem allocMatrix_post (p : Profile) (R C : U64) :
    (allocMatrix p R C).Post (fun x => x.1 = 12#64 * C ∧ x.2 = Array.replicate x.2.size 0 ∧ x.2.size = (R * (12#64 * C)).toNat ∧
      x.2.size < 2 ^ 60 ∧ (p = .debug → BitVec.smulOverflow 12#64 C = false ∧ BitVec.smulOverflow R (12#64 * C) = false)) := by
  unfold allocMatrix
  refine Post.bind (imul_post' p _ _) fun l hl => ?_
  obtain ⟨rfl, hl⟩ := hl
  refine Post.bind (imul_post' p _ _) fun i hi => ?_
  obtain ⟨rfl, hi⟩ := hi
  unfold vecOf
  split
  · rename_i h
    rw [pure_bind]
    refine .pure ⟨rfl, by simp, by simp; rfl, ?_, fun hp => ⟨hl hp, hi hp⟩⟩
    unfold isizeMax at h
    rw [Array.size_replicate]
    omega
  · exact .throw

theorem nBlocksInput_post (p : Profile) (a b : Nat) :
    (nBlocksInput p a b).Post (fun n => a + b + 48 < 2 ^ 63 → n = BitVec.ofNat 64 (nBlocks (a + b))) := by
  by_cases h : a + b + 48 < 2 ^ 63
  · rw [nBlocksInput_ok p h]; exact .pure fun _ => rfl
  · unfold nBlocksInput
    refine Post.triv (usizeAdd_post _ _ _) fun x => Post.triv (usizeAdd_post _ _ _) fun y => ?_
    exact (iadd_post _ _ _).mono fun _ _ h' => absurd h' h

/-! ## Input -/

theorem writeWords_post (bytes : List U8) (ptr : Nat) (m : Matrix) :
    (writeWords bytes ptr m).Post (fun m' => m'.size = m.size) := by
  unfold writeWords
  refine forLoop_post (fun _ (m' : Matrix) => m'.size = m.size) _ _ _ rfl fun j m' _ hm => ?_
  refine Post.triv (slice_post _ _ _) fun x => Post.triv (read64_post _) fun y => ?_
  exact (vset_post _ _ _).mono fun _ h => by rw [h.2, hm]

theorem writeInput_post (p : Profile) (k T R C : U64) (pwd salt : List U8) (n : I64) (m : Matrix) :
    (writeInput p k pwd salt T R C n m).Post (fun m' => m'.size = m.size ∧
      pwd.length / 8 + salt.length / 8 + 6 < m.size ∧ (idiv (n * 64#64) 8#64 - 1#64).toNat < m.size) := by
  unfold writeInput
  refine Post.bind (writeWords_post _ _ _) fun m1 h1 => ?_
  refine Post.bind (writeWords_post _ _ _) fun m2 h2 => ?_
  refine Post.bind (vset_post _ _ _) fun m3 h3 => ?_
  refine Post.bind (vset_post _ _ _) fun m4 h4 => ?_
  refine Post.bind (vset_post _ _ _) fun m5 h5 => ?_
  refine Post.bind (vset_post _ _ _) fun m6 h6 => ?_
  refine Post.bind (vset_post _ _ _) fun m7 h7 => ?_
  refine Post.bind (vset_post _ _ _) fun m8 h8 => ?_
  refine Post.bind (vset_post _ _ _) fun m9 h9 => ?_
  refine Post.bind (imul_post _ _ _) fun a ha => ?_
  subst ha
  refine Post.bind (isub_post _ _ _) fun b hb => ?_
  subst hb
  refine Post.bind (vget_post _ _) fun x hx => ?_
  refine (vset_post _ _ _).mono fun m10 h10 => ?_
  obtain ⟨h9, h9'⟩ := h9
  have e : m9.size = m.size := by omega
  refine ⟨by omega, by omega, ?_⟩
  rw [e] at hx
  exact hx

/-- A matrix of fewer than `2^60` words in which the input was written holds all its blocks. -/
theorem input_bound {a b L : Nat} (hL : L < 2 ^ 60) (h1 : a / 8 + b / 8 + 6 < L) {n : I64}
    (hn : a + b + 48 < 2 ^ 63 → n = BitVec.ofNat 64 (nBlocks (a + b))) (h2 : (idiv (n * 64#64) 8#64 - 1#64).toNat < L) :
    8 * nBlocks (a + b) ≤ L := by
  have hab : a + b + 48 < 2 ^ 63 := by omega
  have := hn hab
  subst this
  have hnb : nBlocks (a + b) ≤ 2 ^ 57 := by unfold nBlocks; omega
  have hnb' : 1 ≤ nBlocks (a + b) := by unfold nBlocks; omega
  generalize nBlocks (a + b) = N at *
  by_cases hN : N = 2 ^ 57
  · subst hN
    exfalso
    have : (idiv (BitVec.ofNat 64 (2 ^ 57) * 64#64) 8#64 - 1#64).toNat = 2 ^ 64 - 2 ^ 60 - 1 := by decide +kernel
    omega
  · rw [show BitVec.ofNat 64 N * 64#64 = BitVec.ofNat 64 (N * 64) from (BitVec.ofNat_mul ..).symm, idiv_ofNat (by omega) (by omega)] at h2
    have : (BitVec.ofNat 64 (N * 64 / 8) - 1#64).toNat = 8 * N - 1 := by
      rw [BitVec.toNat_sub, toNat_ofNat64 (by omega)]
      simp
      omega
    omega

theorem absorb12_post (s : State) (w : Array U64) : (absorb_block s w).Post (fun _ => True) := by
  unfold absorb_block
  refine Post.triv (unroll12_post (fun _ _ => True) s trivial fun j s _ => ?_) fun s => .pure trivial
  exact Post.triv (vget_post _ _) fun x => .pure trivial

theorem absorbSafe_post (s : State) (w : Array U64) : (absorb_block_blake2_safe s w).Post (fun _ => True) := by
  unfold absorb_block_blake2_safe
  refine Post.triv (foldlM_finRange_post (stmt := fun (i : Fin 8) (s : State) => do
    let x ← vget w i
    pure (s.set i (s[i] ^^^ x))) (fun _ _ => True) s trivial fun j s _ => ?_) fun s => .pure trivial
  exact Post.triv (vget_post _ _) fun x => .pure trivial

theorem absorbInput_post (n : I64) (m : Matrix) (s : State) : (Model.Lyra2.absorbInput n m s).Post (fun _ => True) := by
  unfold Model.Lyra2.absorbInput
  refine Post.triv (Q := fun _ => True) ?_ fun x => .pure trivial
  refine forLoop_post (fun _ _ => True) _ _ _ trivial fun j x _ _ => ?_
  exact Post.triv (splitRight_post _ _) fun r => Post.triv (absorbSafe_post _ _) fun s => .pure trivial

/-! ## Row 0 -/

/-- `squeezeRow0` needs room for one row. -/
theorem squeezeRow0_post (p : Profile) (C : U64) (s : State) (m : Matrix) (hm : m.size < 2 ^ 60) :
    (squeezeRow0 p C s m).Post (fun x => x.2.size = m.size ∧ 12 * C.toNat ≤ m.size) := by
  unfold squeezeRow0
  refine Post.bind (isub_post _ _ _) fun a ha => Post.bind (imul_post _ _ _) fun b hb => ?_
  subst ha hb
  -- the loop with its invariant
  have hC := C.isLt
  have hloop := forLoop_post (body := fun _ (x : State × Matrix × I64) => do
      let m ← unroll12 (fun w m => do
        let i ← iadd p x.2.2 (BitVec.ofNat 64 w)
        vset m i.toNat x.1[w]) x.2.1
      let ptr := x.2.2 - BLOCKLENINT64
      let state := reduced_blake2b_lyra x.1
      pure (state, m, ptr))
    (fun j (x : State × Matrix × I64) => x.2.1.size = m.size ∧ x.2.2 = (C - 1 - BitVec.ofNat 64 j) * 12#64 ∧
      ∀ i, i < j → ((C - 1 - BitVec.ofNat 64 i) * 12#64 + 11#64).toNat < m.size) 0 C.toNat (s, m, (C - 1) * 12#64)
    ⟨rfl, by simp, fun i hi => absurd hi (by omega)⟩ ?_
  · refine Post.bind hloop fun x hx => ?_
    refine .pure ⟨hx.1, ?_⟩
    by_contra hlt
    have hi0 : m.size / 12 < C.toNat := by omega
    have := hx.2.2 (C.toNat - 1 - m.size / 12) (by omega)
    have e : C - 1 - BitVec.ofNat 64 (C.toNat - 1 - m.size / 12) = BitVec.ofNat 64 (m.size / 12) := by
      apply BitVec.eq_of_toNat_eq
      rw [BitVec.toNat_sub, BitVec.toNat_sub, toNat_ofNat64 (by omega)]
      simp
      omega
    rw [e, ← show BitVec.ofNat 64 12 = 12#64 from rfl, ← BitVec.ofNat_mul, ← show BitVec.ofNat 64 11 = 11#64 from rfl,
      ← BitVec.ofNat_add, toNat_ofNat64 (by omega)] at this
    omega
  · rintro j ⟨s', m', ptr⟩ hj ⟨h1, h2, h3⟩
    dsimp only at h1 h2 h3 ⊢
    refine Post.bind (unroll12_size (L := m.size) ((ptr + 11#64).toNat) (fun w m1 hm1 => ?_) m' h1) fun m2 hm2 => ?_
    · refine Post.bind (iadd_post _ _ _) fun i hi => ?_
      subst hi
      refine (vset_post _ _ _).mono fun m3 h3 => ⟨by rw [h3.2, hm1], ?_⟩
      rintro rfl
      rw [← hm1]
      exact h3.1
    · refine .pure ⟨hm2.1, ?_, fun i hi => ?_⟩
      · subst h2
        show _ * _ - 12#64 = _
        rw [BitVec.ofNat_add]
        grind
      · by_cases e : i = j
        · subst e; rw [h2] at hm2; exact hm2.2
        · exact h3 i (by omega)

/-! ## Row 1 and the setup rows -/

theorem idxRow0_post (p : Profile) (i : U64) (w : Fin 12) : (idxRow0 p i w).Post (fun _ => True) := by
  unfold idxRow0
  exact Post.triv (imul_post _ _ _) fun a => Post.triv (iadd_post _ _ _) fun b => .pure trivial

theorem idxRow1Rev_post (p : Profile) (C : U64) (l : I64) (i : U64) (w : Fin 12) :
    (idxRow1Rev p C l i w).Post (fun n => n = ((C - i - 1) * 12#64 + l + BitVec.ofNat 64 w).toNat) := by
  unfold idxRow1Rev
  refine Post.bind (usub_post _ _ _) fun a ha => Post.bind (usub_post _ _ _) fun b hb => Post.bind (imul_post _ _ _) fun c hc =>
    Post.bind (iadd_post _ _ _) fun d hd => Post.bind (iadd_post _ _ _) fun e he => .pure ?_
  subst ha hb hc hd he
  rfl

theorem idx_post (p : Profile) (l : I64) (i : U64) (r : I64) (w : Fin 12) : (idx p l i r w).Post (fun _ => True) := by
  unfold idx
  exact Post.triv (imul_post _ _ _) fun a => Post.triv (imul_post _ _ _) fun b => Post.triv (iadd_post _ _ _) fun c =>
    Post.triv (iadd_post _ _ _) fun d => .pure trivial

theorem idxRev_post (p : Profile) (C : U64) (l : I64) (i : U64) (r : I64) (w : Fin 12) :
    (idxRev p C l i r w).Post (fun n => n = ((C - i - 1) * 12#64 + r * l + BitVec.ofNat 64 w).toNat) := by
  unfold idxRev
  refine Post.bind (usub_post _ _ _) fun a ha => Post.bind (usub_post _ _ _) fun b hb => Post.bind (imul_post _ _ _) fun c hc =>
    Post.bind (imul_post _ _ _) fun c' hc' => Post.bind (iadd_post _ _ _) fun d hd => Post.bind (iadd_post _ _ _) fun e he => .pure ?_
  subst ha hb hc hc' hd he
  rfl

/-- The last index of row `r`, as computed by the code for column 0. -/
theorem lastIdx {R C r : Nat} (hC : 0 < C) (hr : r * (12 * C) < 2 ^ 61) (hC' : 12 * C < 2 ^ 60) (_ : r ≤ R) :
    ((BitVec.ofNat 64 C - BitVec.ofNat 64 0 - 1) * 12#64 + BitVec.ofNat 64 r * BitVec.ofNat 64 (12 * C) + BitVec.ofNat 64 11).toNat =
      r * (12 * C) + 12 * C - 1 := by
  have e1 : BitVec.ofNat 64 C - BitVec.ofNat 64 0 - 1 = BitVec.ofNat 64 (C - 1) := by
    apply BitVec.eq_of_toNat_eq
    rw [BitVec.toNat_sub, BitVec.toNat_sub, toNat_ofNat64 (by omega), toNat_ofNat64 (by omega), toNat_ofNat64 (by omega)]
    simp
    omega
  rw [e1, ← show BitVec.ofNat 64 12 = 12#64 from rfl, ← BitVec.ofNat_mul, ← BitVec.ofNat_mul, ← BitVec.ofNat_add,
    ← BitVec.ofNat_add, toNat_ofNat64 (by omega)]
  omega

theorem absorbSum_post (p : Profile) (l : I64) (i : U64) (a b : I64) (m : Matrix) (s : State) :
    (absorbSum p l i a b m s).Post (fun _ => True) := by
  unfold absorbSum
  refine unroll12_post (fun _ _ => True) s trivial fun j s _ => ?_
  exact Post.triv (idx_post _ _ _ _ _) fun x => Post.triv (vget_post _ _) fun x => Post.triv (idx_post _ _ _ _ _) fun x =>
    Post.triv (vget_post _ _) fun x => .pure trivial

theorem xorRotW_post (p : Profile) (l : I64) (i : U64) (a : I64) (s : State) (m : Matrix) :
    (xorRotW p l i a s m).Post (fun m' => m'.size = m.size) := by
  unfold xorRotW
  refine unroll12_post (fun _ (m' : Matrix) => m'.size = m.size) m rfl fun j m' hm => ?_
  exact Post.triv (idx_post _ _ _ _ _) fun x => Post.triv (vget_post _ _) fun x => (vset_post _ _ _).mono fun m'' h => by rw [h.2, hm]

/-- Row 1 keeps the size and needs room for two rows. -/
theorem duplexRow1_post (p : Profile) (C : U64) (l : I64) (s : State) (m : Matrix) :
    (duplexRow1 p C l s m).Post (fun x => x.2.size = m.size ∧
      (0 < C.toNat → ((C - BitVec.ofNat 64 0 - 1) * 12#64 + l + BitVec.ofNat 64 11).toNat < m.size)) := by
  unfold duplexRow1
  have := forLoop_post (fun j (x : State × Matrix) => x.2.size = m.size ∧
    (0 < j → ((C - BitVec.ofNat 64 0 - 1) * 12#64 + l + BitVec.ofNat 64 11).toNat < m.size)) 0 C.toNat (s, m)
    ⟨rfl, fun h => absurd h (by omega)⟩ (body := fun i x => do
    let i := BitVec.ofNat 64 i
    let state ← unroll12 (fun w (state : State) => do
      let y ← vget x.2 (← idxRow0 p i w)
      pure (state.set w (state[w] ^^^ y))) x.1
    let state := reduced_blake2b_lyra state
    let m ← unroll12 (fun w m => do
      let y ← vget m (← idxRow0 p i w)
      vset m (← idxRow1Rev p C l i w) (y ^^^ state[w])) x.2
    pure (state, m)) ?_
  · exact this
  · rintro j ⟨s', m'⟩ hj ⟨h1, h2⟩
    dsimp only at h1 h2 ⊢
    refine Post.triv (unroll12_post (fun _ _ => True) s' trivial fun w s _ => ?_) fun s'' => ?_
    · exact Post.triv (idxRow0_post _ _ _) fun x => Post.triv (vget_post _ _) fun x => .pure trivial
    · refine Post.bind (unroll12_size (L := m.size) (((C - BitVec.ofNat 64 (0 + j) - 1) * 12#64 + l + BitVec.ofNat 64 11).toNat)
        (fun w m1 hm1 => ?_) m' h1) fun m2 hm2 => ?_
      · refine Post.triv (idxRow0_post _ _ _) fun x => Post.triv (vget_post _ _) fun y =>
          Post.bind (idxRow1Rev_post _ _ _ _ _) fun n hn => ?_
        subst hn
        refine (vset_post _ _ _).mono fun m3 h3 => ⟨by rw [h3.2, hm1], ?_⟩
        rintro rfl
        rw [← hm1]
        exact h3.1
      · refine .pure ⟨hm2.1, fun _ => ?_⟩
        by_cases e : j = 0
        · subst e; exact hm2.2
        · exact h2 (by omega)

/-- A setup row keeps the size and needs room for the row it writes. -/
theorem duplexRowSetup_post (p : Profile) (C : U64) (l prev rowa row : I64) (s : State) (m : Matrix) :
    (duplexRowSetup p C l prev rowa row s m).Post (fun x => x.2.size = m.size ∧
      (0 < C.toNat → ((C - BitVec.ofNat 64 0 - 1) * 12#64 + row * l + BitVec.ofNat 64 11).toNat < m.size)) := by
  unfold duplexRowSetup
  have := forLoop_post (fun j (x : State × Matrix) => x.2.size = m.size ∧
    (0 < j → ((C - BitVec.ofNat 64 0 - 1) * 12#64 + row * l + BitVec.ofNat 64 11).toNat < m.size)) 0 C.toNat (s, m)
    ⟨rfl, fun h => absurd h (by omega)⟩ (body := fun i x => do
    let i := BitVec.ofNat 64 i
    let state ← absorbSum p l i prev rowa x.2 x.1
    let state := reduced_blake2b_lyra state
    let m ← unroll12 (fun w m => do
      let y ← vget m (← idx p l i prev w)
      vset m (← idxRev p C l i row w) (y ^^^ state[w])) x.2
    let m ← xorRotW p l i rowa state m
    pure (state, m)) ?_
  · exact this
  · rintro j ⟨s', m'⟩ hj ⟨h1, h2⟩
    dsimp only at h1 h2 ⊢
    refine Post.triv (absorbSum_post _ _ _ _ _ _ _) fun s'' => ?_
    refine Post.bind (unroll12_size (L := m.size) (((C - BitVec.ofNat 64 (0 + j) - 1) * 12#64 + row * l + BitVec.ofNat 64 11).toNat)
        (fun w m1 hm1 => ?_) m' h1) fun m2 hm2 => ?_
    · refine Post.triv (idx_post _ _ _ _ _) fun x => Post.triv (vget_post _ _) fun y =>
          Post.bind (idxRev_post _ _ _ _ _ _) fun n hn => ?_
      subst hn
      refine (vset_post _ _ _).mono fun m3 h3 => ⟨by rw [h3.2, hm1], ?_⟩
      rintro rfl
      rw [← hm1]
      exact h3.1
    · refine Post.bind (xorRotW_post _ _ _ _ _ _) fun m3 h3 => .pure ⟨by rw [h3, hm2.1], fun _ => ?_⟩
      by_cases e : j = 0
      · subst e; exact hm2.2
      · exact h2 (by omega)

theorem setupNext_post (p : Profile) (v : SetupVars) : (v.next p).Post (fun v' => v'.row = v.row + 1#64) := by
  unfold SetupVars.next
  refine Post.triv (iadd_post _ _ _) fun a => Post.triv (isub_post _ _ _) fun b => Post.bind (iadd_post _ _ _) fun c hc => ?_
  subst hc
  split
  · exact Post.triv (iadd_post _ _ _) fun a => Post.triv (imul_post _ _ _) fun b => Post.triv (ineg_post _ _) fun c => .pure rfl
  · exact .pure rfl

theorem setupRows_post (p : Profile) (R C : U64) (l : I64) (s : State) (m : Matrix) :
    (Model.Lyra2.setupRows p R C l s m).Post (fun x => x.2.1.size = m.size ∧ (0 < C.toNat → ∀ r, 2 ≤ r → r < irangeLen 2 R + 2 →
      ((C - BitVec.ofNat 64 0 - 1) * 12#64 + BitVec.ofNat 64 r * l + BitVec.ofNat 64 11).toNat < m.size)) := by
  unfold Model.Lyra2.setupRows
  have := forLoop_post (fun j (x : State × Matrix × SetupVars) => x.2.1.size = m.size ∧ x.2.2.row = BitVec.ofNat 64 (2 + j) ∧
    (0 < C.toNat → ∀ r, 2 ≤ r → r < j + 2 →
      ((C - BitVec.ofNat 64 0 - 1) * 12#64 + BitVec.ofNat 64 r * l + BitVec.ofNat 64 11).toNat < m.size))
    2 (irangeLen 2 R) (s, m, SetupVars.start) ⟨rfl, rfl, fun _ r h1 h2 => absurd h2 (by omega)⟩ (body := fun _ x => do
      let (state, m) ← duplexRowSetup p C l x.2.2.prev x.2.2.rowa x.2.2.row x.1 x.2.1
      let v ← x.2.2.next p
      pure (state, m, v)) ?_
  · exact this.mono fun x hx => ⟨hx.1, hx.2.2⟩
  · rintro j ⟨s', m', v⟩ hj ⟨h1, h2, h3⟩
    dsimp only at h1 h2 h3 ⊢
    refine Post.bind (duplexRowSetup_post _ _ _ _ _ _ _ _) fun x hx => ?_
    obtain ⟨s1, m1⟩ := x
    dsimp only at hx ⊢
    refine Post.bind (setupNext_post _ _) fun v' hv => .pure ⟨by rw [hx.1, h1], ?_, fun hC r hr1 hr2 => ?_⟩
    · rw [hv, h2, ← Nat.add_assoc, BitVec.ofNat_add (2 + j) 1]
    · by_cases e : r = 2 + j
      · subst e
        have := hx.2 hC
        rw [h2, h1] at this
        exact this
      · exact h3 hC r hr1 (by omega)

/-! ## Everything before the wandering phase -/

theorem nat_of_bv {R C : U64} (h : 12 * C.toNat < 2 ^ 60) : (R * (12#64 * C)).toNat = R.toNat * (12 * C.toNat) % 2 ^ 64 := by
  rw [BitVec.toNat_mul, BitVec.toNat_mul]
  have : (12#64).toNat = 12 := rfl
  rw [this, Nat.mod_eq_of_lt (a := 12 * C.toNat) (by omega)]

/-- With overflow checks a matrix of nonzero size can only be allocated if the number of rows is not negative as an `i64`,
once `12 * n_cols` is known to be small. -/
theorem rows_nonneg {R C : U64} (hC : 12 * C.toNat < 2 ^ 60) (h : BitVec.smulOverflow R (12#64 * C) = false)
    (h0 : 0 < (R * (12#64 * C)).toNat) (hL : (R * (12#64 * C)).toNat < 2 ^ 60) : R.toNat < 2 ^ 63 := by
  by_contra hR
  have hR' := R.isLt
  have hl : (12#64 * C).toNat = 12 * C.toNat := by
    rw [BitVec.toNat_mul]
    have : (12#64).toNat = 12 := rfl
    rw [this, Nat.mod_eq_of_lt (by omega)]
  have hl' : (12#64 * C).toInt = 12 * C.toNat := by
    rw [BitVec.toInt_eq_toNat_of_lt (by omega), hl]; push_cast; ring
  have hRi : R.toInt = (R.toNat : Int) - 2 ^ 64 := by
    rw [BitVec.toInt_eq_toNat_cond, if_neg (by omega)]; norm_cast
  unfold BitVec.smulOverflow at h
  simp only [Bool.or_eq_false_iff, decide_eq_false_iff_not, not_le, not_lt] at h
  have hprod : (R * (12#64 * C)).toInt = R.toInt * (12#64 * C).toInt := by
    rw [BitVec.toInt_mul, Int.bmod_eq_of_le] <;> push_cast <;> omega
  have hpos : 0 < (R * (12#64 * C)).toInt := by
    rw [BitVec.toInt_eq_toNat_of_lt (by omega)]; omega
  rw [hprod, hl'] at hpos
  have : R.toInt * (12 * C.toNat) ≤ 0 := Int.mul_nonpos_of_nonpos_of_nonneg (by omega) (by omega)
  omega

theorem front_post (p : Profile) (k T R C : U64) (pwd salt : List U8) (hR3 : 3 ≤ R.toNat) :
    (front p k pwd salt T R C).Post (fun _ => (p = .debug ∨ R.toNat < 2 ^ 63) →
      96 * (R.toNat * C.toNat) < 2 ^ 63 ∧ 8 * nBlocks (pwd.length + salt.length) ≤ 12 * (R.toNat * C.toNat)) := by
  unfold front
  refine Post.bind (allocMatrix_post p R C) fun x hx => ?_
  obtain ⟨l, m⟩ := x
  obtain ⟨rfl, -, hsize, hlt, hov⟩ := hx
  dsimp only at hsize hlt ⊢
  refine Post.bind (nBlocksInput_post _ _ _) fun n hn => ?_
  refine Post.bind (writeInput_post _ _ _ _ _ _ _ _ _) fun m1 h1 => ?_
  obtain ⟨hs1, hi1, hi2⟩ := h1
  have hin := input_bound hlt hi1 hn hi2
  have hin8 : 8 ≤ m.size := by unfold nBlocks at hin; omega
  refine Post.triv (absorbInput_post _ _ _) fun s => ?_
  refine Post.bind (squeezeRow0_post p C s m1 (by omega)) fun x hx => ?_
  obtain ⟨s2, m2⟩ := x
  obtain ⟨hs2, h12⟩ := hx
  dsimp only at hs2 ⊢
  refine Post.bind (duplexRow1_post _ _ _ _ _) fun x hx => ?_
  obtain ⟨s3, m3⟩ := x
  obtain ⟨hs3, hrow1⟩ := hx
  dsimp only at hs3 hrow1 ⊢
  refine Post.bind (setupRows_post _ _ _ _ _ _) fun x hx => ?_
  obtain ⟨s4, m4, v⟩ := x
  obtain ⟨hs4, hrows⟩ := hx
  dsimp only at hs4 hrows ⊢
  refine .pure fun hp => ?_
  have hC : 0 < C.toNat := by
    by_contra hc
    have : C = 0 := BitVec.eq_of_toNat_eq (by simp; omega)
    subst this
    have : (R * (12#64 * 0#64)).toNat = 0 := by simp
    have e0 : m.size = 0 := by rw [hsize]; exact this
    omega
  rw [hs1] at h12
  have hR63 : R.toNat < 2 ^ 63 := by
    rcases hp with hp | hp
    · exact rows_nonneg (by omega) (hov hp).2 (by omega) (by omega)
    · exact hp
  have e12 : (12#64 * C) = BitVec.ofNat 64 (12 * C.toNat) := by
    rw [BitVec.ofNat_mul]; simp
  have eC : C = BitVec.ofNat 64 C.toNat := by simp
  have key : R.toNat * (12 * C.toNat) ≤ m.size := by
    by_contra hbig
    -- the first row that does not fit
    have hr1 : m.size / (12 * C.toNat) < R.toNat := by
      rw [Nat.div_lt_iff_lt_mul (by omega)]; omega
    have hr2 : 1 ≤ m.size / (12 * C.toNat) := by
      rw [Nat.le_div_iff_mul_le (by omega)]; omega
    have hr3 : m.size / (12 * C.toNat) * (12 * C.toNat) ≤ m.size := Nat.div_mul_le_self _ _
    have hr4 : m.size < m.size / (12 * C.toNat) * (12 * C.toNat) + 12 * C.toNat := by
      have := Nat.lt_div_mul_add (a := m.size) (b := 12 * C.toNat) (by omega); omega
    generalize m.size / (12 * C.toNat) = r at *
    have hlast := lastIdx (R := R.toNat) (r := r) hC (by omega) (by omega) (by omega)
    rw [← eC] at hlast
    by_cases h1 : r = 1
    · subst h1
      have := hrow1 hC
      rw [e12, hs2, hs1] at this
      rw [BitVec.one_mul] at hlast
      omega
    · have := hrows hC r (by omega) (by
        rw [show (2 : U64) = BitVec.ofNat 64 2 from rfl]
        rw [show R = BitVec.ofNat 64 R.toNat by simp, irangeLen_ofNat (by omega) hR63]
        omega)
      rw [e12, hlast, hs3, hs2, hs1] at this
      omega
  have heq : R.toNat * (12 * C.toNat) = m.size := by
    rw [hsize, nat_of_bv (by omega), Nat.mod_eq_of_lt (by omega)]
  have e : R.toNat * (12 * C.toNat) = 12 * (R.toNat * C.toNat) := by ring
  constructor <;> omega

end Proofs.Lyra2

import Verif.Proofs.Matrix

/-! One row operation of the code is one row operation of the specification. -/

namespace Proofs.Lyra2
open Rust Rust.Res Model.Lyra2 Spec Spec.Lyra2 Proofs.Sponge

/-- Index bounds that follow from the size of the matrix. -/
theorem bounds {R C r c : Nat} (hM : 12 * (R * C) < 2 ^ 60) (hr : r < R) (hc : c < C) :
    r < 2 ^ 60 ∧ c < 2 ^ 60 ∧ 12 * C < 2 ^ 60 ∧ C < 2 ^ 60 ∧ R < 2 ^ 60 ∧ c * 12 + r * (12 * C) + 12 ≤ 12 * (R * C) ∧
      base C r c = c * 12 + r * (12 * C) := by
  have h1 := base_lt hr hc
  have h2 : base C r c = c * 12 + r * (12 * C) := by unfold base; ring
  have h3 : R * 1 ≤ R * C := Nat.mul_le_mul_left _ (by omega)
  have h4 : 1 * C ≤ R * C := Nat.mul_le_mul_right _ (by omega)
  refine ⟨by omega, by omega, by omega, by omega, by omega, by omega, h2⟩

theorem toNat_ofNat64 {a : Nat} (h : a < 2 ^ 64) : (BitVec.ofNat 64 a).toNat = a := by
  rw [BitVec.toNat_ofNat]; omega

section idx
variable {R C r c : Nat} (p : Profile) (hM : 12 * (R * C) < 2 ^ 60) (hr : r < R) (hc : c < C) (w : Fin 12)
include hM hr hc

theorem idx_ok : idx p (BitVec.ofNat 64 (12 * C)) (BitVec.ofNat 64 c) (BitVec.ofNat 64 r) w = pure (base C r c + w) := by
  obtain ⟨h1, h2, h3, h4, h5, h6, h7⟩ := bounds hM hr hc
  have hw := w.isLt
  unfold idx
  rw [show BLOCKLENINT64 = BitVec.ofNat 64 12 from rfl, imul_ofNat p (by omega) (by omega) (by omega), pure_bind,
    imul_ofNat p (by omega) (by omega) (by omega), pure_bind, iadd_ofNat p (by omega), pure_bind, iadd_ofNat p (by omega),
    pure_bind, toNat_ofNat64 (by omega), h7]

theorem idxRev_ok : idxRev p (BitVec.ofNat 64 C) (BitVec.ofNat 64 (12 * C)) (BitVec.ofNat 64 c) (BitVec.ofNat 64 r) w =
    pure (base C r (C - 1 - c) + w) := by
  obtain ⟨h1, h2, h3, h4, h5, h6, h7⟩ := bounds hM hr (show C - 1 - c < C by omega)
  have hw := w.isLt
  unfold idxRev
  rw [show BLOCKLENINT64 = BitVec.ofNat 64 12 from rfl, usub_ofNat p (by omega) (by omega), pure_bind,
    show (1 : BitVec 64) = BitVec.ofNat 64 1 from rfl, usub_ofNat p (by omega) (by omega), pure_bind,
    show C - c - 1 = C - 1 - c by omega, imul_ofNat p (by omega) (by omega) (by omega), pure_bind,
    imul_ofNat p (by omega) (by omega) (by omega), pure_bind, iadd_ofNat p (by omega), pure_bind, iadd_ofNat p (by omega),
    pure_bind, toNat_ofNat64 (by omega), h7]

end idx

theorem idxRow0_ok {R C c : Nat} (p : Profile) (hM : 12 * (R * C) < 2 ^ 60) (hR : 0 < R) (hc : c < C) (w : Fin 12) :
    idxRow0 p (BitVec.ofNat 64 c) w = pure (base C 0 c + w) := by
  obtain ⟨h1, h2, h3, h4, h5, h6, h7⟩ := bounds hM hR hc
  have hw := w.isLt
  unfold idxRow0
  rw [show BLOCKLENINT64 = BitVec.ofNat 64 12 from rfl, imul_ofNat p (by omega) (by omega) (by omega), pure_bind,
    iadd_ofNat p (by omega), pure_bind, toNat_ofNat64 (by omega), h7, Nat.zero_mul, Nat.add_zero]

theorem idxRow1Rev_ok {R C c : Nat} (p : Profile) (hM : 12 * (R * C) < 2 ^ 60) (hR : 1 < R) (hc : c < C) (w : Fin 12) :
    idxRow1Rev p (BitVec.ofNat 64 C) (BitVec.ofNat 64 (12 * C)) (BitVec.ofNat 64 c) w = pure (base C 1 (C - 1 - c) + w) := by
  obtain ⟨h1, h2, h3, h4, h5, h6, h7⟩ := bounds hM hR (show C - 1 - c < C by omega)
  have hw := w.isLt
  unfold idxRow1Rev
  rw [show BLOCKLENINT64 = BitVec.ofNat 64 12 from rfl, usub_ofNat p (by omega) (by omega), pure_bind,
    show (1 : BitVec 64) = BitVec.ofNat 64 1 from rfl, usub_ofNat p (by omega) (by omega), pure_bind,
    show C - c - 1 = C - 1 - c by omega, imul_ofNat p (by omega) (by omega) (by omega), pure_bind,
    iadd_ofNat p (by omega), pure_bind, iadd_ofNat p (by omega),
    pure_bind, toNat_ofNat64 (by omega), h7, Nat.one_mul]

/-- Reading a word of a represented block. -/
theorem Rep.vget {R C r c : Nat} {m : Matrix} {M : Mem} (h : Rep R C m M) (hr : r < R) (hc : c < C) (w : Fin 12) :
    vget m (base C r c + w) = pure (M r c)[w] := by
  unfold Rust.vget; rw [h.2 r hr c hc w]

/-- Reading a word of a represented block while another block is partly overwritten. -/
theorem Rep.vget' {R C r c r' c' : Nat} {m m' : Matrix} {M : Mem} (h : Rep R C m M) (hr : r < R) (hc : c < C)
    (w : Fin 12) (h' : ∀ i, (i < base C r' c' ∨ base C r' c' + w ≤ i) → m'[i]? = m[i]?) :
    Rust.vget m' (base C r c + w) = pure (M r c)[w] := by
  unfold Rust.vget
  rw [h', h.2 r hr c hc w]
  by_cases e : C * r + c = C * r' + c'
  · unfold base; rw [e]; omega
  · rcases base_disjoint C w e with h | h
    · exact .inl h
    · exact .inr (by omega)

section cols
variable {R C : Nat} (p : Profile) (hM : 12 * (R * C) < 2 ^ 60) {m : Matrix} {M : Mem} (h : Rep R C m M) (s : State)
include hM h

theorem absorbSum_ok {prev rowa c : Nat} (hp : prev < R) (ha : rowa < R) (hc : c < C) :
    absorbSum p (BitVec.ofNat 64 (12 * C)) (BitVec.ofNat 64 c) (BitVec.ofNat 64 prev) (BitVec.ofNat 64 rowa) m s =
      pure (xorRate s (badd (M prev c) (M rowa c))) := by
  unfold absorbSum
  apply absorb12
  intro j s'
  rw [idx_ok p hM hp hc, pure_bind, h.vget hp hc, pure_bind, idx_ok p hM ha hc, pure_bind, h.vget ha hc, pure_bind]
  simp [badd]

theorem xorRotW_ok {rowa c : Nat} (ha : rowa < R) (hc : c < C) :
    (xorRotW p (BitVec.ofNat 64 (12 * C)) (BitVec.ofNat 64 c) (BitVec.ofNat 64 rowa) s m).Sat
      (fun m' => Rep R C m' (put M rowa c (bxor (M rowa c) (rotW (rate s))))) := by
  unfold xorRotW
  have hb := base_lt ha hc
  refine (write12 (base C rowa c) m (by rw [h.1]; exact hb)
    (fun w => (bxor (M rowa c) (rotW (rate s)))[w]) _ (fun j m' _ h' => ?_)).mono fun m' ⟨h1, h2, h3⟩ => h.put hc h1 h2 h3
  rw [idx_ok p hM ha hc, pure_bind, h.vget' ha hc j h', pure_bind]
  simp [bxor, rotW, rate]

theorem writeRow1_ok {c : Nat} (hR : 1 < R) (hc : c < C) :
    (unroll12 (fun w m => do
      let x ← Rust.vget m (← idxRow0 p (BitVec.ofNat 64 c) w)
      vset m (← idxRow1Rev p (BitVec.ofNat 64 C) (BitVec.ofNat 64 (12 * C)) (BitVec.ofNat 64 c) w) (x ^^^ s[w])) m).Sat
      (fun m' => Rep R C m' (put M 1 (C - 1 - c) (bxor (M 0 c) (rate s)))) := by
  have hc' : C - 1 - c < C := by omega
  have hb := base_lt hR hc'
  refine (write12 (base C 1 (C - 1 - c)) m (by rw [h.1]; exact hb)
    (fun w => (bxor (M 0 c) (rate s))[w]) _ (fun j m' _ h' => ?_)).mono fun m' ⟨h1, h2, h3⟩ => h.put hc' h1 h2 h3
  rw [idxRow0_ok p hM (by omega) hc, pure_bind, h.vget' (by omega) hc j h', pure_bind, idxRow1Rev_ok p hM hR hc, pure_bind]
  simp [bxor, rate]

theorem writeSetup_ok {prev row c : Nat} (hp : prev < R) (hr : row < R) (hc : c < C) :
    (unroll12 (fun w m => do
      let x ← Rust.vget m (← idx p (BitVec.ofNat 64 (12 * C)) (BitVec.ofNat 64 c) (BitVec.ofNat 64 prev) w)
      vset m (← idxRev p (BitVec.ofNat 64 C) (BitVec.ofNat 64 (12 * C)) (BitVec.ofNat 64 c) (BitVec.ofNat 64 row) w)
        (x ^^^ s[w])) m).Sat
      (fun m' => Rep R C m' (put M row (C - 1 - c) (bxor (M prev c) (rate s)))) := by
  have hc' : C - 1 - c < C := by omega
  have hb := base_lt hr hc'
  refine (write12 (base C row (C - 1 - c)) m (by rw [h.1]; exact hb)
    (fun w => (bxor (M prev c) (rate s))[w]) _ (fun j m' _ h' => ?_)).mono fun m' ⟨h1, h2, h3⟩ => h.put hc' h1 h2 h3
  rw [idx_ok p hM hp hc, pure_bind, h.vget' hp hc j h', pure_bind, idxRev_ok p hM hr hc, pure_bind]
  simp [bxor, rate]

theorem writeWander_ok {row c : Nat} (hr : row < R) (hc : c < C) :
    (unroll12 (fun w m => do
      let j ← idx p (BitVec.ofNat 64 (12 * C)) (BitVec.ofNat 64 c) (BitVec.ofNat 64 row) w
      let x ← Rust.vget m j
      vset m j (x ^^^ s[w])) m).Sat
      (fun m' => Rep R C m' (put M row c (bxor (M row c) (rate s)))) := by
  have hb := base_lt hr hc
  refine (write12 (base C row c) m (by rw [h.1]; exact hb)
    (fun w => (bxor (M row c) (rate s))[w]) _ (fun j m' _ h' => ?_)).mono fun m' ⟨h1, h2, h3⟩ => h.put hc h1 h2 h3
  rw [idx_ok p hM hr hc, pure_bind, h.vget' hr hc j h', pure_bind]
  simp [bxor, rate]

end cols

/-- What it means that a pair of sponge state and array represents a pair of sponge state and matrix. -/
def Rep2 (R C : Nat) (x : State × Matrix) (y : Sponge × Mem) : Prop := x.1 = y.1 ∧ Rep R C x.2 y.2

/-- A `for` loop over the columns simulates a fold over the columns. -/
theorem cols_sim {R C : Nat} {body : Nat → State × Matrix → Res (State × Matrix)} {col : Sponge × Mem → Nat → Sponge × Mem}
    (step : ∀ c, c < C → ∀ x y, Rep2 R C x y → (body c x).Sat (fun x' => Rep2 R C x' (col y c)))
    {x : State × Matrix} {y : Sponge × Mem} (h : Rep2 R C x y) :
    (forLoop 0 C body x).Sat (fun x' => Rep2 R C x' ((List.range C).foldl col y)) := by
  refine forLoop_sat (fun j x' => Rep2 R C x' ((List.range j).foldl col y)) 0 C x h fun j x' hj hx => ?_
  rw [Nat.zero_add, List.range_succ, List.foldl_append]
  exact step j hj x' _ hx

section rows
variable {R C : Nat} (p : Profile) (hM : 12 * (R * C) < 2 ^ 60) {m : Matrix} {M : Mem} {s : State} (h : Rep R C m M)
include hM h

theorem duplexRow1_ok (hR : 1 < R) (hC : 0 < C) :
    (duplexRow1 p (BitVec.ofNat 64 C) (BitVec.ofNat 64 (12 * C)) s m).Sat (fun x => Rep2 R C x (row1 C s M)) := by
  obtain ⟨-, -, -, hC', -, -, -⟩ := bounds hM hR hC
  unfold duplexRow1 row1
  rw [toNat_ofNat64 (by omega)]
  refine cols_sim (fun c hc x y hxy => ?_) ⟨rfl, h⟩
  obtain ⟨s, m⟩ := x; obtain ⟨s', M⟩ := y; obtain ⟨rfl, hr⟩ := hxy
  dsimp only at hr ⊢
  rw [absorb12 s (M 0 c) _ (fun j s' => by
    rw [idxRow0_ok p hM (by omega) hc, pure_bind, hr.vget (by omega) hc, pure_bind]), pure_bind, reduced_eq]
  refine Sat.bind (writeRow1_ok p hM hr _ hR hc) fun m' hm' => .pure ⟨rfl, hm'⟩

theorem duplexRowSetup_ok {prev rowa row : Nat} (hp : prev < R) (ha : rowa < R) (hr : row < R) (hC : 0 < C) :
    (duplexRowSetup p (BitVec.ofNat 64 C) (BitVec.ofNat 64 (12 * C)) (BitVec.ofNat 64 prev) (BitVec.ofNat 64 rowa)
      (BitVec.ofNat 64 row) s m).Sat (fun x => Rep2 R C x (setupRow C prev rowa row (s, M))) := by
  obtain ⟨-, -, -, hC', -, -, -⟩ := bounds hM hp hC
  unfold duplexRowSetup setupRow
  rw [toNat_ofNat64 (by omega)]
  refine cols_sim (fun c hc x y hxy => ?_) ⟨rfl, h⟩
  obtain ⟨s, m⟩ := x; obtain ⟨s', M⟩ := y; obtain ⟨rfl, hm⟩ := hxy
  dsimp only at hm ⊢
  rw [absorbSum_ok p hM hm s hp ha hc, pure_bind, reduced_eq]
  refine Sat.bind (writeSetup_ok p hM hm _ hp hr hc) fun m1 hm1 => ?_
  refine Sat.bind (xorRotW_ok p hM hm1 _ ha hc) fun m2 hm2 => .pure ⟨rfl, hm2⟩

theorem duplexRow_ok {prev rowa row : Nat} (hp : prev < R) (ha : rowa < R) (hr : row < R) (hC : 0 < C) :
    (duplexRow p (BitVec.ofNat 64 C) (BitVec.ofNat 64 (12 * C)) (BitVec.ofNat 64 prev) (BitVec.ofNat 64 rowa)
      (BitVec.ofNat 64 row) s m).Sat
      (fun x => Rep2 R C x ((List.range C).foldl (wanderCol prev rowa row) (s, M))) := by
  obtain ⟨-, -, -, hC', -, -, -⟩ := bounds hM hp hC
  unfold duplexRow
  rw [toNat_ofNat64 (by omega)]
  refine cols_sim (fun c hc x y hxy => ?_) ⟨rfl, h⟩
  obtain ⟨s, m⟩ := x; obtain ⟨s', M⟩ := y; obtain ⟨rfl, hm⟩ := hxy
  dsimp only at hm ⊢
  rw [absorbSum_ok p hM hm s hp ha hc, pure_bind, reduced_eq]
  refine Sat.bind (writeWander_ok p hM hm _ hr hc) fun m1 hm1 => ?_
  refine Sat.bind (xorRotW_ok p hM hm1 _ ha hc) fun m2 hm2 => .pure ⟨rfl, hm2⟩

theorem squeezeRow0_ok (hR : 0 < R) (hC : 0 < C) :
    (squeezeRow0 p (BitVec.ofNat 64 C) s m).Sat (fun x => Rep2 R C x (row0 C s M)) := by
  obtain ⟨-, -, hC12, hC', -, -, -⟩ := bounds hM hR hC
  unfold squeezeRow0 row0
  rw [toNat_ofNat64 (by omega), show BLOCKLENINT64 = BitVec.ofNat 64 12 from rfl,
    show (1 : BitVec 64) = BitVec.ofNat 64 1 from rfl, isub_ofNat p (by omega) (by omega), pure_bind,
    imul_ofNat p (by omega) (by omega) (by omega), pure_bind]
  refine Sat.bind (forLoop_sat (fun j (x : State × Matrix × I64) =>
    Rep2 R C (x.1, x.2.1) ((List.range j).foldl (fun (s, M) c => (fρ s, put M 0 (C - 1 - c) (rate s))) (s, M)) ∧
      (j < C → x.2.2 = BitVec.ofNat 64 ((C - 1 - j) * 12))) 0 C (s, m, BitVec.ofNat 64 ((C - 1) * 12))
      ⟨⟨rfl, h⟩, fun _ => rfl⟩ ?_) fun x hx => .pure hx.1
  intro j x hj hx
  obtain ⟨s1, m1, ptr⟩ := x
  rw [List.range_succ, List.foldl_append]
  generalize List.foldl _ _ (List.range j) = y at hx ⊢
  obtain ⟨s', M1⟩ := y
  obtain ⟨⟨rfl, hm⟩, hp⟩ := hx
  replace hp := hp hj
  dsimp only at hp hm ⊢
  subst hp
  have hc' : C - 1 - j < C := by omega
  obtain ⟨-, -, -, -, -, hb1, hb2⟩ := bounds hM hR hc'
  refine Sat.bind (write12 (base C 0 (C - 1 - j)) m1 (by rw [hm.1]; omega) (fun w => (rate s1)[w]) _
    (fun w m' _ h' => ?_)) fun m2 ⟨h1, h2, h3⟩ => .pure ⟨⟨?_, hm.put hc' h1 h2 h3⟩, fun hj' => ?_⟩
  · have hw := w.isLt
    rw [iadd_ofNat p (by omega), pure_bind, toNat_ofNat64 (by omega), hb2]
    simp [rate]
  · exact reduced_eq s1
  · apply BitVec.eq_of_toNat_eq
    simp only [BitVec.toNat_sub, BitVec.toNat_ofNat]
    omega

end rows

end Proofs.Lyra2

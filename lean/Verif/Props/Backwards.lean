import Verif.Props.Rows
import Verif.Props.Sponge
import Verif.Proofs.Backwards

/-! Properties C45, C46: row operations lose no information, and neither does the setup phase. -/

namespace Props
open Rust Rust.Res Spec Spec.Lyra2 Model.Lyra2
open Proofs.Lyra2 (Same AgreeOn)

/-! ## C45 -/

/-- **C45** (i) A row operation of the wandering phase loses no information: sponge state and matrix after it determine
sponge state and matrix before it, for every choice of the three rows (also coinciding ones). -/
theorem C45_row_operation_injective (p : Profile) (R C : U64) (hs : Shape R C) (prev rowa row : U64)
    (hp : prev.toNat < R.toNat) (ha : rowa.toNat < R.toNat) (hr : row.toNat < R.toNat) (s s' : State) (m m' : Matrix)
    (hm : m.size = 12 * (R.toNat * C.toNat)) (hm' : m'.size = 12 * (R.toNat * C.toNat)) (x : State × Matrix)
    (h : (duplexRow p C (rowLen C) prev rowa row s m).Returns x)
    (h' : (duplexRow p C (rowLen C) prev rowa row s' m').Returns x) : s = s' ∧ m = m' := by
  obtain ⟨M, hM⟩ := Proofs.Lyra2.Rep.of_size hm
  obtain ⟨M', hM'⟩ := Proofs.Lyra2.Rep.of_size hm'
  obtain ⟨y, h1, h2, h3⟩ := Proofs.Lyra2.duplexRow_ok p hs.bound hM (s := s) hp ha hr hs.cols
  obtain ⟨y', h1', h2', h3'⟩ := Proofs.Lyra2.duplexRow_ok p hs.bound hM' (s := s') hp ha hr hs.cols
  rw [ofNat_toNat64, ofNat_toNat64, ofNat_toNat64, ofNat_toNat64] at h1 h1'
  have e : x = y := Res.pure_inj (h.symm.trans h1)
  have e' : x = y' := Res.pure_inj (h'.symm.trans h1')
  subst e e'
  have := Proofs.Lyra2.wanderRowOp_back (P := (· < R.toNat)) hp ha ⟨h2.symm.trans h2', h3.agree_of_eq h3'⟩
  exact ⟨this.1, hM.unique hM' this.2⟩

theorem finite_arrays (n : Nat) : Finite {m : Matrix // m.size = n} := by
  refine Finite.of_injective (β := Fin n → Fin (2 ^ 64)) (fun m i => (m.1[i.val]'(by rw [m.2]; exact i.isLt)).toFin) ?_
  intro a b h
  apply Subtype.ext
  apply Array.ext (by rw [a.2, b.2])
  intro i hi hi'
  have := congrFun h ⟨i, by rw [← a.2]; exact hi⟩
  exact BitVec.eq_of_toFin_eq this

theorem finite_state : Finite State := by
  refine Finite.of_injective (β := Fin 16 → Fin (2 ^ 64)) (fun s i => s[i].toFin) ?_
  intro a b h
  apply Vector.ext
  intro i hi
  exact BitVec.eq_of_toFin_eq (congrFun h ⟨i, hi⟩)

/-- **C45** (ii) and every pair of sponge state and matrix is the result of a row operation: it is a bijection. -/
theorem C45_row_operation_onto (p : Profile) (R C : U64) (hs : Shape R C) (prev rowa row : U64)
    (hp : prev.toNat < R.toNat) (ha : rowa.toNat < R.toNat) (hr : row.toNat < R.toNat) (t : State) (n : Matrix)
    (hn : n.size = 12 * (R.toNat * C.toNat)) :
    ∃ s m, m.size = 12 * (R.toNat * C.toNat) ∧ (duplexRow p C (rowLen C) prev rowa row s m).Returns (t, n) := by
  have key : ∀ x : State × {m : Matrix // m.size = 12 * (R.toNat * C.toNat)},
      ∃ y : State × {m : Matrix // m.size = 12 * (R.toNat * C.toNat)},
        (duplexRow p C (rowLen C) prev rowa row x.1 x.2.1).Returns (y.1, y.2.1) := by
    intro x
    obtain ⟨s', m', h1, h2, -⟩ := (C40_row_operation_frame p R C hs prev rowa row x.1 x.2.1 x.2.2 hp ha hr).1
    exact ⟨(s', ⟨m', h2.trans x.2.2⟩), h1⟩
  choose g hg using key
  have := finite_arrays (12 * (R.toNat * C.toNat))
  have := finite_state
  have hinj : Function.Injective g := by
    intro a b e
    have ha' := hg a
    rw [e] at ha'
    obtain ⟨e1, e2⟩ := C45_row_operation_injective p R C hs prev rowa row hp ha hr _ _ _ _ a.2.2 b.2.2 _ ha' (hg b)
    exact Prod.ext e1 (Subtype.ext e2)
  obtain ⟨x, hx⟩ := Finite.injective_iff_surjective.mp hinj (t, ⟨n, hn⟩)
  have h := hg x
  rw [hx] at h
  exact ⟨x.1, x.2.1, x.2.2, h⟩

/-- With `row = row*` (as happens for some states). -/
example (t : State) (n : Matrix) (hn : n.size = 12 * (4 * 4)) :
    ∃ s m, m.size = 12 * (4 * 4) ∧ (duplexRow .release 4 (rowLen 4) 3 1 1 s m).Returns (t, n) :=
  C45_row_operation_onto .release 4 4 ⟨by decide, by decide, by unfold isizeMax; decide⟩ 3 1 1 (by decide) (by decide) (by decide) t n hn

/-! ## C46 -/

/-- **C46** (i) The setup phase loses no information: state and matrix after it determine the state before it, whatever
the matrix held before. -/
theorem C46_setup_injective (p : Profile) (R C : U64) (hs : Shape R C) (s s' : State) (m m' : Matrix)
    (hm : m.size = 12 * (R.toNat * C.toNat)) (hm' : m'.size = 12 * (R.toNat * C.toNat)) (t : State) (n : Matrix)
    (v v' : SetupVars) (h : (setupPhase p R C (rowLen C) s m).Returns (t, n, v))
    (h' : (setupPhase p R C (rowLen C) s' m').Returns (t, n, v')) : s = s' := by
  obtain ⟨x, h1, ⟨h2, h3⟩, -⟩ := setupPhase_ok p hs s hm
  obtain ⟨x', h1', ⟨h2', h3'⟩, -⟩ := setupPhase_ok p hs s' hm'
  have e := Res.pure_inj (h.symm.trans h1)
  have e' := Res.pure_inj (h'.symm.trans h1')
  subst e e'
  have hR := hs.rows
  exact Proofs.Lyra2.setup_back (R := R.toNat) (C := C.toNat) (by omega) ⟨h2.symm.trans h2', h3.agree_of_eq h3'⟩

/-- Everything before the wandering phase (src/lyra2.rs:272-526). -/
def beforeWander (p : Profile) (k : U64) (pwd salt : List U8) (T R C : U64) : Res (State × Matrix × SetupVars) := do
  let (l, m) ← allocMatrix p R C
  let n ← nBlocksInput p pwd.length salt.length
  let m ← writeInput p k pwd salt T R C n m
  let s ← Model.Lyra2.absorbInput n m init_state
  setupPhase p R C l s m

theorem beforeWander_ok (p : Profile) (k T R C : U64) (pwd salt : List U8) (h : Accepts k pwd.length salt.length T R C) :
    ∃ m, m.size = 12 * (R.toNat * C.toNat) ∧ ∃ s, (absorbedState p k pwd salt T R C).Returns s ∧
      beforeWander p k pwd salt T R C = setupPhase p R C (rowLen C) s m := by
  have hC := Proofs.Lyra2.Domain.cols (domain_iff.2 h)
  have hst := absorbedState_eq p k T R C pwd salt h
  obtain ⟨hT, hR, hk, hmem, hin⟩ := h
  have hM : 12 * (R.toNat * C.toNat) < 2 ^ 60 := by unfold isizeMax at hmem; omega
  have halloc := Proofs.Lyra2.allocMatrix_ok p (show 0 < R.toNat by omega) hM hC
  rw [ofNat_toNat64, ofNat_toNat64] at halloc
  obtain ⟨m, hm1, hm2⟩ := Proofs.Lyra2.writeInput_ok p k T R C pwd salt hM hin
  refine ⟨m, hm2.1, _, hst, ?_⟩
  unfold absorbedState at hst
  unfold beforeWander
  rw [halloc, pure_bind] at hst ⊢
  dsimp only at hst ⊢
  rw [Proofs.Lyra2.nBlocksInput_ok p (by omega), pure_bind, hm1, pure_bind] at hst ⊢
  rw [hst, pure_bind]
  rfl

/-- These definitions are phases of the code: an accepted call is absorption, setup, wandering, wrap-up, the setup phase being
run from the absorbed state. -/
theorem C46_phases (p : Profile) (k T R C : U64) (pwd salt : List U8) (h : Accepts k pwd.length salt.length T R C) :
    lyra2 p k pwd salt T R C = (do
      let (s, m, v) ← beforeWander p k pwd salt T R C
      let w ← Model.Lyra2.wander p T R C (rowLen C) { state := s, m := m, prev := v.prev, row := 0, rowa := v.rowa }
      wrapUp p k (rowLen C) w) ∧
    ∃ m, m.size = 12 * (R.toNat * C.toNat) ∧ ∃ s, (absorbedState p k pwd salt T R C).Returns s ∧
      beforeWander p k pwd salt T R C = setupPhase p R C (rowLen C) s m := by
  refine ⟨?_, beforeWander_ok p k T R C pwd salt h⟩
  have hC := Proofs.Lyra2.Domain.cols (domain_iff.2 h)
  obtain ⟨hT, hR, hk, hmem, hin⟩ := h
  have hM : 12 * (R.toNat * C.toNat) < 2 ^ 60 := by unfold isizeMax at hmem; omega
  have halloc := Proofs.Lyra2.allocMatrix_ok p (show 0 < R.toNat by omega) hM hC
  rw [ofNat_toNat64, ofNat_toNat64] at halloc
  unfold lyra2 beforeWander setupPhase
  rw [if_neg (by omega), if_neg (by omega), halloc]
  simp only [pure_bind, bind_assoc]
  rfl

/-- **C46** (ii) As the chains call it (`pwd = salt` = a 32-byte digest): different digests never lead to the same state and
matrix before the wandering phase. -/
theorem C46_digest_injective (p : Profile) (T R C : U64) (d d' : List U8) (hd : d.length = 32) (hd' : d'.length = 32)
    (h : Accepts 32 32 32 T R C) (t : State) (n : Matrix) (v v' : SetupVars)
    (h1 : (beforeWander p 32 d d T R C).Returns (t, n, v)) (h2 : (beforeWander p 32 d' d' T R C).Returns (t, n, v')) :
    d = d' := by
  have hC := Proofs.Lyra2.Domain.cols (domain_iff.2 h)
  have hs : Shape R C := ⟨h.2.1, hC, h.2.2.2.1⟩
  obtain ⟨m, hm, s, hs1, e⟩ := beforeWander_ok p 32 T R C d d (by rw [hd]; exact h)
  obtain ⟨m', hm', s', hs1', e'⟩ := beforeWander_ok p 32 T R C d' d' (by rw [hd']; exact h)
  rw [e] at h1
  rw [e'] at h2
  have := C46_setup_injective p R C hs s s' m m' hm hm' t n v v' h1 h2
  subst this
  exact C23_digest_injective p T R C d d' hd hd' h s hs1 hs1'

/-- The parameters of `lyra2re`, `lyra2rev2` and `lyra2z`. -/
example : Accepts 32 32 32 1 8 8 ∧ Accepts 32 32 32 1 4 4 ∧ Accepts 32 32 32 8 8 8 := by unfold Accepts isizeMax; decide

end Props

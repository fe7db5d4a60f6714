import Verif.Props.Schedule
import Mathlib.Data.Set.Card
import Mathlib.Data.Fintype.Pi
import Mathlib.Data.Fintype.BigOperators

/-! Property C49: the wandering phase loses information only through the choice of `row*`. -/

namespace Props
open Rust Rust.Res Spec Spec.Lyra2 Model.Lyra2
open Proofs.Lyra2 (toNat_ofNat64)

/-! ## C49 -/

/-- Row operations of the wandering phase with all rows given: pairs `(row, row*)`; `prev` is the row computed before. -/
def rowOps (p : Profile) (C : U64) (prev : U64) : List (U64 × U64) → State × Matrix → Res (State × Matrix)
  | [], x => pure x
  | (row, rowa) :: l, x => do
    let y ← duplexRow p C (rowLen C) prev rowa row x.1 x.2
    rowOps p C row l y

/-- **C49** (i) With the rows given, a sequence of row operations is injective. -/
theorem C49_fixed_rows_injective (p : Profile) (R C : U64) (hs : Shape R C) (l : List (U64 × U64))
    (hl : ∀ a ∈ l, a.1.toNat < R.toNat ∧ a.2.toNat < R.toNat) (prev : U64) (hp : prev.toNat < R.toNat)
    (s s' : State) (m m' : Matrix) (hm : m.size = 12 * (R.toNat * C.toNat)) (hm' : m'.size = 12 * (R.toNat * C.toNat))
    (y : State × Matrix) (h : (rowOps p C prev l (s, m)).Returns y) (h' : (rowOps p C prev l (s', m')).Returns y) :
    s = s' ∧ m = m' := by
  induction l generalizing prev s s' m m' with
  | nil =>
    have := (pure_inj h).trans (pure_inj h').symm
    exact ⟨congrArg Prod.fst this, congrArg Prod.snd this⟩
  | cons a l ih =>
    obtain ⟨row, rowa⟩ := a
    obtain ⟨h1, h2⟩ := hl _ List.mem_cons_self
    obtain ⟨x, e, h⟩ := bind_returns h
    obtain ⟨x', e', h'⟩ := bind_returns h'
    obtain ⟨⟨t, n, f1, f2, -⟩, -⟩ := C40_row_operation_frame p R C hs prev rowa row s m hm hp h2 h1
    obtain ⟨⟨t', n', f1', f2', -⟩, -⟩ := C40_row_operation_frame p R C hs prev rowa row s' m' hm' hp h2 h1
    have hx : x = (t, n) := pure_inj (e.symm.trans f1)
    have hx' : x' = (t', n') := pure_inj (e'.symm.trans f1')
    subst hx hx'
    obtain ⟨rfl, rfl⟩ := ih (fun a ha => hl a (List.mem_cons_of_mem _ ha)) row h1 t t' n n' (f2.trans hm) (f2'.trans hm') h h'
    exact C45_row_operation_injective p R C hs prev rowa row hp h2 h1 s s' m m' hm hm' _ f1 f1'

/-- **C49** (ii) and onto: it is a bijection on pairs of sponge state and matrix. -/
theorem C49_fixed_rows_onto (p : Profile) (R C : U64) (hs : Shape R C) (l : List (U64 × U64))
    (hl : ∀ a ∈ l, a.1.toNat < R.toNat ∧ a.2.toNat < R.toNat) (prev : U64) (hp : prev.toNat < R.toNat)
    (t : State) (n : Matrix) (hn : n.size = 12 * (R.toNat * C.toNat)) :
    ∃ s m, m.size = 12 * (R.toNat * C.toNat) ∧ (rowOps p C prev l (s, m)).Returns (t, n) := by
  induction l generalizing prev with
  | nil => exact ⟨t, n, hn, rfl⟩
  | cons a l ih =>
    obtain ⟨row, rowa⟩ := a
    obtain ⟨h1, h2⟩ := hl _ List.mem_cons_self
    obtain ⟨s, m, hm, h⟩ := ih (fun a ha => hl a (List.mem_cons_of_mem _ ha)) row h1
    obtain ⟨s', m', hm', h'⟩ := C45_row_operation_onto p R C hs prev rowa row hp h2 h1 s m hm
    refine ⟨s', m', hm', ?_⟩
    unfold Returns at h h' ⊢
    unfold rowOps
    dsimp only
    rw [h', pure_bind, h]

theorem and_pred_lt {R : U64} (hR : 1 ≤ R.toNat) (x : U64) : (x &&& (R - 1)).toNat < R.toNat := by
  have h1 : (R - 1).toNat = R.toNat - 1 := by
    rw [BitVec.toNat_sub_of_le (by rw [BitVec.le_def]; exact hR)]; rfl
  rw [BitVec.toNat_and, h1]
  have : x.toNat &&& (R.toNat - 1) ≤ R.toNat - 1 := Nat.and_le_right
  omega

/-- The rows `row*` chosen along a sequence of row operations. -/
theorem stars_of_ops {p : Profile} {R C : U64} (hR : 1 ≤ R.toNat) (rows : List Nat) (x y : State × Matrix × U64 × U64)
    (h : rows.foldlM (rowOp p R C) x = pure y) :
    ∃ stars : List U64, stars.length = rows.length ∧ (∀ a ∈ stars, a.toNat < R.toNat) ∧
      rowOps p C x.2.2.1 ((rows.map num).zip stars) (x.1, x.2.1) = pure (y.1, y.2.1) := by
  induction rows generalizing x with
  | nil => exact ⟨[], rfl, by simp, by have := pure_inj h; subst this; rfl⟩
  | cons r rows ih =>
    rw [List.foldlM_cons] at h
    obtain ⟨z, e, h⟩ := bind_returns h
    unfold rowOp at e
    obtain ⟨⟨s, m⟩, e1, e⟩ := bind_returns e
    have e := pure_inj e
    subst e
    obtain ⟨stars, h1, h2, h3⟩ := ih _ h
    refine ⟨(x.1[0] &&& (R - 1)) :: stars, by simp [h1], ?_, ?_⟩
    · intro a ha
      rcases List.mem_cons.mp ha with rfl | ha
      · exact and_pred_lt hR _
      · exact h2 a ha
    · rw [List.map_cons, List.zip_cons_cons]
      unfold rowOps
      dsimp only
      rw [e1, pure_bind]
      exact h3

theorem stars_of_ops_mod {p : Profile} {R C : U64} (hR : 1 ≤ R.toNat) (rows : List Nat) (x y : State × Matrix × U64 × U64 × U64)
    (h : rows.foldlM (rowOpMod p R C) x = pure y) :
    ∃ stars : List U64, stars.length = rows.length ∧ (∀ a ∈ stars, a.toNat < R.toNat) ∧
      rowOps p C x.2.2.1 ((rows.map num).zip stars) (x.1, x.2.1) = pure (y.1, y.2.1) := by
  induction rows generalizing x with
  | nil => exact ⟨[], rfl, by simp, by have := pure_inj h; subst this; rfl⟩
  | cons r rows ih =>
    rw [List.foldlM_cons] at h
    obtain ⟨z, e, h⟩ := bind_returns h
    unfold rowOpMod at e
    obtain ⟨⟨s, m⟩, e1, e⟩ := bind_returns e
    have e := pure_inj e
    subst e
    obtain ⟨stars, h1, h2, h3⟩ := ih _ h
    refine ⟨(x.1[(x.1[x.2.2.2.2.toNat % 16]'(Nat.mod_lt _ (by decide))).toNat % 16]'(Nat.mod_lt _ (by decide)) &&& (R - 1)) ::
      stars, by simp [h1], ?_, ?_⟩
    · intro a ha
      rcases List.mem_cons.mp ha with rfl | ha
      · exact and_pred_lt hR _
      · exact h2 a ha
    · rw [List.map_cons, List.zip_cons_cons]
      unfold rowOps
      dsimp only
      rw [Proofs.Lyra2.mod_duplexRow] at e1
      rw [e1, pure_bind]
      exact h3

/-- **C49** (iii) The wandering phase of `lyra2` and of `lyra2mod` is such a sequence: the rows of the schedule (C47) with some
`row*` for each of them, all below `n_rows`. -/
theorem C49_wander_is_row_operations (p : Profile) (T R C : U64) (hs : Shape R C) :
    (∀ v w, PassStart R C v → (Model.Lyra2.wander p T R C (rowLen C) v).Returns w →
      ∃ stars : List U64, stars.length = (schedule (Order.mask R.toNat) T.toNat).length ∧ (∀ a ∈ stars, a.toNat < R.toNat) ∧
        (rowOps p C v.prev (((schedule (Order.mask R.toNat) T.toNat).map num).zip stars) (v.state, v.m)).Returns
          (w.state, w.m)) ∧
    (∀ v w, PassStartMod R C v → (Model.Lyra2mod.wander p T R C (rowLen C) v).Returns w →
      ∃ stars : List U64, stars.length = (schedule (Order.mask R.toNat) T.toNat).length ∧ (∀ a ∈ stars, a.toNat < R.toNat) ∧
        (rowOps p C v.prev (((schedule (Order.mask R.toNat) T.toNat).map num).zip stars) (v.state, v.m)).Returns
          (w.state, w.m)) := by
  have hR := hs.rows
  constructor
  · intro v w hv hw
    obtain ⟨w', h1, -, h3⟩ := C47_wander_schedule p T R C hs v hv
    have : w = w' := pure_inj (hw.symm.trans h1)
    subst this
    exact stars_of_ops (by omega) _ _ _ h3
  · intro v w hv hw
    obtain ⟨w', h1, -, h3⟩ := C47_wander_schedule_mod p T R C hs v hv
    have : w = w' := pure_inj (hw.symm.trans h1)
    subst this
    exact stars_of_ops_mod (by omega) _ _ _ h3

/-- With 4 rows, one pass: rows 0, 1, 2, 3 after row 3, and for instance `row*` = 1, 3, 0, 0. -/
example : Shape 4 4 ∧ (schedule (Order.mask 4) 1 = [0, 1, 2, 3]) ∧
    ∀ a ∈ (((schedule (Order.mask 4) 1).map num).zip [1, 3, 0, 0] : List (U64 × U64)), a.1.toNat < 4 ∧ a.2.toNat < 4 :=
  ⟨⟨by decide, by decide, by unfold isizeMax; decide⟩, by decide, by decide⟩

/-- Starts from which some choice of `row*` leads to `y` are no more than there are choices. -/
theorem preimages_le {R C : U64} (hs : Shape R C) (p : Profile) (prev : U64) (hp : prev.toNat < R.toNat) (rows : List Nat)
    (hrows : ∀ r ∈ rows, r < R.toNat) (y : State × Matrix) (A : Set (State × Matrix))
    (hA : ∀ x ∈ A, x.2.size = 12 * (R.toNat * C.toNat) ∧ ∃ stars : List U64, stars.length = rows.length ∧
      (∀ a ∈ stars, a.toNat < R.toNat) ∧ (rowOps p C prev ((rows.map num).zip stars) x).Returns y) :
    A.Finite ∧ A.ncard ≤ R.toNat ^ rows.length := by
  choose hsize g hlen hlt hret using hA
  let F : A → (Fin rows.length → Fin R.toNat) := fun x i =>
    ⟨((g x.1 x.2)[i.val]'(by rw [hlen]; exact i.isLt)).toNat, hlt _ _ _ (List.getElem_mem _)⟩
  have hF : Function.Injective F := by
    rintro ⟨x, hx⟩ ⟨x', hx'⟩ e
    have hg : g x hx = g x' hx' := by
      apply List.ext_getElem (by rw [hlen, hlen])
      intro i hi hi'
      have := congrFun e ⟨i, by rw [hlen] at hi; exact hi⟩
      have := congrArg Fin.val this
      exact BitVec.eq_of_toNat_eq this
    have h1 := hret x hx
    have h2 := hret x' hx'
    rw [← hg] at h2
    have := C49_fixed_rows_injective p R C hs _ (fun a ha => ?_) prev hp x.1 x'.1 x.2 x'.2 (hsize x hx) (hsize x' hx') y h1 h2
    · exact Subtype.ext (Prod.ext this.1 this.2)
    · obtain ⟨h3, h4⟩ := List.of_mem_zip (a := a.1) (b := a.2) ha
      obtain ⟨r, hr, e⟩ := List.mem_map.mp h3
      refine ⟨?_, hlt _ _ _ h4⟩
      rw [← e, toNat_ofNat64 (by have := hrows r hr; have := R.isLt; omega)]
      exact hrows r hr
  have hfin : Finite A := Finite.of_injective F hF
  refine ⟨Set.toFinite A, ?_⟩
  have := Nat.card_le_card_of_injective F hF
  rw [Nat.card_eq_fintype_card (α := Fin rows.length → Fin R.toNat), Fintype.card_fun, Fintype.card_fin, Fintype.card_fin] at this
  exact this

/-- The starts (sponge state, matrix of the right size) from which the wandering phase of `lyra2` ends in `y`. -/
def predecessors (p : Profile) (T R C prev rowa : U64) (y : State × Matrix) : Set (State × Matrix) :=
  {x | x.2.size = 12 * (R.toNat * C.toNat) ∧ ∃ w, (w.state, w.m) = y ∧
    (Model.Lyra2.wander p T R C (rowLen C) { state := x.1, m := x.2, prev := prev, row := 0, rowa := rowa }).Returns w}

/-- The starts from which the wandering phase of `lyra2mod` ends in `y`. -/
def predecessorsMod (p : Profile) (T R C prev rowa index : U64) (y : State × Matrix) : Set (State × Matrix) :=
  {x | x.2.size = 12 * (R.toNat * C.toNat) ∧ ∃ w, (w.state, w.m) = y ∧
    (Model.Lyra2mod.wander p T R C (rowLen C)
      { state := x.1, m := x.2, prev := prev, row := 0, rowa := rowa, index := index }).Returns w}

/-- **C49** (iv) Every end of the wandering phase (sponge state and matrix) has at most `n_rows` to the power of the number of row
operations predecessors, for any number of passes, in `lyra2` and in `lyra2mod`: a row operation loses at most the
`log2 n_rows` bits that select `row*`. -/
theorem C49_predecessors (p : Profile) (T R C : U64) (hs : Shape R C) (prev rowa index : U64) (hp : prev.toNat < R.toNat)
    (ha : rowa.toNat < R.toNat) (y : State × Matrix) :
    ((predecessors p T R C prev rowa y).Finite ∧
      (predecessors p T R C prev rowa y).ncard ≤ R.toNat ^ (schedule (Order.mask R.toNat) T.toNat).length) ∧
    ((predecessorsMod p T R C prev rowa index y).Finite ∧
      (predecessorsMod p T R C prev rowa index y).ncard ≤ R.toNat ^ (schedule (Order.mask R.toNat) T.toNat).length) := by
  have hR := hs.rows
  have hrows := (C47_schedule_bound R.toNat T.toNat (by omega)).2
  constructor
  · refine preimages_le hs p prev hp _ hrows y _ ?_
    rintro ⟨s, m⟩ ⟨hm, w, rfl, hw⟩
    exact ⟨hm, (C49_wander_is_row_operations p T R C hs).1 _ w ⟨hm, rfl, hp, ha⟩ hw⟩
  · refine preimages_le hs p prev hp _ hrows y _ ?_
    rintro ⟨s, m⟩ ⟨hm, w, rfl, hw⟩
    exact ⟨hm, (C49_wander_is_row_operations p T R C hs).2 _ w ⟨hm, rfl, hp, ha⟩ hw⟩

/-- With the parameters of `lyra2::sum` (one pass over 4 rows, 13312 bits of state and matrix): at most `4^4` predecessors. -/
example : Shape 4 4 ∧ (4 : U64).toNat ^ (schedule (Order.mask (4 : U64).toNat) (1 : U64).toNat).length = 256 :=
  ⟨⟨by decide, by decide, by unfold isizeMax; decide⟩, by decide⟩

/-- The 32-byte digests `d` for which `lyra2(32, d, d, T, R, C)` has sponge state and matrix `y` after the wandering phase. -/
def digestsLeadingTo (p : Profile) (T R C : U64) (y : State × Matrix) : Set (List U8) :=
  {d | d.length = 32 ∧ ∃ s m v w, (beforeWander p 32 d d T R C).Returns (s, m, v) ∧ (w.state, w.m) = y ∧
    (Model.Lyra2.wander p T R C (rowLen C)
      { state := s, m := m, prev := v.prev, row := 0, rowa := v.rowa }).Returns w}

/-- The same for `lyra2mod`. -/
def digestsLeadingToMod (p : Profile) (T R C : U64) (y : State × Matrix) : Set (List U8) :=
  {d | d.length = 32 ∧ ∃ s m v w, (beforeWander p 32 d d T R C).Returns (s, m, v) ∧ (w.state, w.m) = y ∧
    (Model.Lyra2mod.wander p T R C (rowLen C)
      { state := s, m := m, prev := v.prev, row := 0, rowa := v.rowa, index := 0 }).Returns w}

/-- **C49** (v) As the chains call it (`pwd = salt` = a 32-byte digest): of the `2^256` digests at most `n_rows` to the power of the
number of row operations lead to the same sponge state and matrix after the wandering phase. -/
theorem C49_digests (p : Profile) (T R C : U64) (h : Accepts 32 32 32 T R C) (y : State × Matrix) :
    ((digestsLeadingTo p T R C y).Finite ∧
      (digestsLeadingTo p T R C y).ncard ≤ R.toNat ^ (schedule (Order.mask R.toNat) T.toNat).length) ∧
    ((digestsLeadingToMod p T R C y).Finite ∧
      (digestsLeadingToMod p T R C y).ncard ≤ R.toNat ^ (schedule (Order.mask R.toNat) T.toNat).length) := by
  have hC := Proofs.Lyra2.Domain.cols (domain_iff.2 h)
  have hs : Shape R C := ⟨h.2.1, hC, h.2.2.2.1⟩
  have hlt := hs.rows_lt
  have h3 := hs.rows
  have hstar : setupStar R.toNat < R.toNat := by
    have := Proofs.Lyra2.setupStar_lt (show 2 ≤ R.toNat by omega)
    omega
  have hp : (num (R.toNat - 1)).toNat < R.toNat := by rw [toNat_ofNat64 (by omega)]; omega
  have ha : (num (setupStar R.toNat)).toNat < R.toNat := by rw [toNat_ofNat64 (by omega)]; exact hstar
  have start : ∀ d : List U8, ∃ x : State × Matrix, d.length = 32 → x.2.size = 12 * (R.toNat * C.toNat) ∧ ∃ v,
      v.prev = num (R.toNat - 1) ∧ v.rowa = num (setupStar R.toNat) ∧ (beforeWander p 32 d d T R C).Returns (x.1, x.2, v) := by
    intro d
    by_cases hd : d.length = 32
    · obtain ⟨s, m, v, h1, h2, h3, h4, -⟩ := C48_same_start p 32 T R C d d (by rw [hd]; exact h)
      exact ⟨(s, m), fun _ => ⟨h4.size, v, h2, h3, h1⟩⟩
    · exact ⟨(default, #[]), fun h => absurd h hd⟩
  choose g hg using start
  have inj : ∀ d d' : List U8, d.length = 32 → d'.length = 32 → g d = g d' → d = d' := by
    intro d d' hd hd' e
    obtain ⟨-, v, e1, e2, h1⟩ := hg d hd
    obtain ⟨-, v', e1', e2', h1'⟩ := hg d' hd'
    rw [← e] at h1'
    exact C46_digest_injective p T R C d d' hd hd' h _ _ _ _ h1 h1'
  have key := C49_predecessors p T R C hs _ _ 0 hp ha y
  refine ⟨?_, ?_⟩
  · have maps : Set.MapsTo g (digestsLeadingTo p T R C y) (predecessors p T R C (num (R.toNat - 1)) (num (setupStar R.toNat)) y) := by
      rintro d ⟨hd, s, m, v, w, h1, h2, h3⟩
      obtain ⟨hm, v', e1, e2, h1'⟩ := hg d hd
      have e := pure_inj (h1.symm.trans h1')
      simp only [Prod.mk.injEq] at e
      obtain ⟨rfl, rfl, rfl⟩ := e
      refine ⟨hm, w, h2, ?_⟩
      rw [← e1, ← e2]
      exact h3
    have hinj : Set.InjOn g (digestsLeadingTo p T R C y) := fun d hd d' hd' e => inj d d' hd.1 hd'.1 e
    exact ⟨Set.Finite.of_injOn maps hinj key.1.1, (Set.ncard_le_ncard_of_injOn g maps hinj key.1.1).trans key.1.2⟩
  · have maps : Set.MapsTo g (digestsLeadingToMod p T R C y)
        (predecessorsMod p T R C (num (R.toNat - 1)) (num (setupStar R.toNat)) 0 y) := by
      rintro d ⟨hd, s, m, v, w, h1, h2, h3⟩
      obtain ⟨hm, v', e1, e2, h1'⟩ := hg d hd
      have e := pure_inj (h1.symm.trans h1')
      simp only [Prod.mk.injEq] at e
      obtain ⟨rfl, rfl, rfl⟩ := e
      refine ⟨hm, w, h2, ?_⟩
      rw [← e1, ← e2]
      exact h3
    have hinj : Set.InjOn g (digestsLeadingToMod p T R C y) := fun d hd d' hd' e => inj d d' hd.1 hd'.1 e
    exact ⟨Set.Finite.of_injOn maps hinj key.2.1, (Set.ncard_le_ncard_of_injOn g maps hinj key.2.1).trans key.2.2⟩

/-- With the parameters of `lyra2rev2` and `lyra2rev3`: at most `2^8` of the `2^256` digests. -/
example : Accepts 32 32 32 1 4 4 ∧ (4 : U64).toNat ^ (schedule (Order.mask (4 : U64).toNat) (1 : U64).toNat).length = 2 ^ 8 :=
  ⟨by unfold Accepts isizeMax; decide, by decide⟩

end Props

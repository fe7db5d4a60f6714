import Verif.Spec.Trace
import Verif.Proofs.Lyra2Orders

/-! The rounds of a pass of the wandering phase. -/

namespace Proofs.Lyra2
open Rust Rust.Res Model.Lyra2 Spec Spec.Lyra2

theorem Rounds.loop {σ β : Type} {body : σ → Res (σ ⊕ β)} {vs : List σ} {w : β} (h : Rounds body vs w) :
    ∀ v vs', vs = v :: vs' → loop body v = pure w := by
  induction h with
  | last h =>
    rintro v vs' e
    cases e
    rw [loop_step, h, pure_bind]
  | more h t ih =>
    rintro v vs' e
    cases e
    rw [loop_step, h, pure_bind]
    exact ih _ _ rfl

/-- The states are determined by the first one. -/
theorem Rounds.unique {σ β : Type} {body : σ → Res (σ ⊕ β)} {vs us : List σ} {w x : β} (h : Rounds body vs w)
    (h' : Rounds body us x) (e : vs.head? = us.head?) : vs = us ∧ w = x := by
  induction h generalizing us with
  | last h =>
    cases h' with
    | last h' =>
      simp only [List.head?_cons, Option.some.injEq] at e
      subst e
      have := pure_inj (h.symm.trans h')
      injection this with this
      exact ⟨rfl, this⟩
    | more h' t =>
      simp only [List.head?_cons, Option.some.injEq] at e
      subst e
      have := pure_inj (h.symm.trans h')
      cases this
  | more h t ih =>
    cases h' with
    | last h' =>
      simp only [List.head?_cons, Option.some.injEq] at e
      subst e
      have := pure_inj (h.symm.trans h')
      cases this
    | more h' t' =>
      simp only [List.head?_cons, Option.some.injEq] at e
      subst e
      have := pure_inj (h.symm.trans h')
      injection this with this
      subst this
      obtain ⟨h1, h2⟩ := ih t' rfl
      exact ⟨by rw [h1], h2⟩

/-- As `pass_sim`, with the rounds of the loop. -/
theorem pass_trace {σ : Type} {R C τ : Nat} {pick : Pick} {body : σ → Res (σ ⊕ σ)} (RW : σ → Nat → Wander → Prop)
    (rowOf : σ → I64) (hrow : ∀ v x V, RW v x V → rowOf v = BitVec.ofNat 64 x) (hR : 0 < R)
    (step : ∀ v x V, x < R → RW v x V → (body v).Sat (PassPost RW (maskNext R τ x) (wanderRow pick C V x)))
    (fuel n : Nat) (hn : 1 ≤ n) (hf : n ≤ fuel) (x : Nat) (hx : x < R) (hret : (maskNext R τ)^[n] x = 0)
    (v : σ) (V : Wander) (h : RW v x V) :
    ∃ vs w, Rounds body (v :: vs) w ∧ (v :: vs).map rowOf = (orbit (maskNext R τ) fuel x).map (BitVec.ofNat 64) ∧
      (∀ u ∈ v :: vs, ∃ y U, y < R ∧ RW u y U) ∧ RW w 0 ((orbit (maskNext R τ) fuel x).foldl (wanderRow pick C) V) := by
  induction fuel generalizing n x v V with
  | zero => omega
  | succ fuel ih =>
    obtain ⟨r, hb, hr⟩ := step v x V hx h
    unfold orbit
    match r with
    | .inl v' =>
      obtain ⟨h1, h2⟩ := hr
      rw [if_neg h1, List.foldl_cons]
      obtain ⟨n', rfl⟩ : ∃ n', n = n' + 1 := ⟨n - 1, by omega⟩
      rw [Function.iterate_succ_apply] at hret
      have hn' : 1 ≤ n' := by
        by_contra hc
        have : n' = 0 := by omega
        subst this
        exact h1 hret
      obtain ⟨vs, w, t1, t2, t3, t4⟩ := ih n' hn' (by omega) _ (maskNext_lt hR _ _) hret v' _ h2
      refine ⟨v' :: vs, w, .more hb t1, ?_, ?_, t4⟩
      · rw [List.map_cons, t2, hrow v x V h]; rfl
      · intro u hu
        rcases List.mem_cons.mp hu with rfl | hu
        · exact ⟨x, V, hx, h⟩
        · exact t3 u hu
    | .inr v' =>
      obtain ⟨h1, h2⟩ := hr
      rw [if_pos h1, List.foldl_cons, List.foldl_nil]
      refine ⟨[], v', .last hb, ?_, ?_, h2⟩
      · rw [List.map_cons, hrow v x V h]; rfl
      · intro u hu
        rw [List.mem_singleton] at hu
        subst hu
        exact ⟨x, V, hx, h⟩

/-- A pass of `lyra2`, round by round. -/
theorem lyra2_trace (p : Profile) {R C : Nat} (hM : 12 * (R * C) < 2 ^ 60) (hR : 3 ≤ R) (hC : 0 < C) (τ : Nat)
    {v : WanderVars} {V : Wander} (h : RepW R C v 0 V) :
    ∃ vs w, Rounds (wanderBody p (BitVec.ofNat 64 R) (BitVec.ofNat 64 C) (BitVec.ofNat 64 (12 * C)) (stepOf R τ)) (v :: vs) w ∧
      (v :: vs).map WanderVars.row = (Order.mask R τ).map (BitVec.ofNat 64) ∧
      (∀ u ∈ v :: vs, ∃ y U, y < R ∧ RepW R C u y U) ∧ RepW R C w 0 ((Order.mask R τ).foldl (wanderRow (Pick.mask R) C) V) := by
  obtain ⟨-, -, -, -, hR', -, -⟩ := bounds hM (show 0 < R by omega) hC
  obtain ⟨n, hn1, hn2, hn3⟩ := maskNext_returns (show 0 < R by omega) (by omega) τ
  exact pass_trace (RepW R C) WanderVars.row (fun _ _ _ h => h.row) (by omega)
    (fun v x V hx hv => wanderBody_ok p hM hR hC τ v x V hx hv) R n hn1 hn2 0 (by omega) hn3 v V h

/-- A pass of `lyra2mod`, round by round. -/
theorem lyra2mod_trace (p : Profile) {R C : Nat} (hM : 12 * (R * C) < 2 ^ 60) (hR : 3 ≤ R) (hC : 0 < C) (τ : Nat)
    {v : Model.Lyra2mod.WanderVars} {V : Wander} (h : RepWM R C v 0 V) :
    ∃ vs w, Rounds (Model.Lyra2mod.wanderBody p (BitVec.ofNat 64 R) (BitVec.ofNat 64 C) (BitVec.ofNat 64 (12 * C))
        (stepOf R τ)) (v :: vs) w ∧
      (v :: vs).map Model.Lyra2mod.WanderVars.row = (Order.mask R τ).map (BitVec.ofNat 64) ∧
      (∀ u ∈ v :: vs, ∃ y U, y < R ∧ RepWM R C u y U) ∧
      RepWM R C w 0 ((Order.mask R τ).foldl (wanderRow (Pick.rev3 R) C) V) := by
  obtain ⟨-, -, -, -, hR', -, -⟩ := bounds hM (show 0 < R by omega) hC
  obtain ⟨n, hn1, hn2, hn3⟩ := maskNext_returns (show 0 < R by omega) (by omega) τ
  exact pass_trace (RepWM R C) Model.Lyra2mod.WanderVars.row (fun _ _ _ h => h.row) (by omega)
    (fun v x V hx hv => mod_wanderBody_ok p hM hR hC τ v x V hx hv) R n hn1 hn2 0 (by omega) hn3 v V h

/-! ## Frame -/

/-- Writing rows `a`, `b` only. -/
def Frame (P : Nat → Prop) (M M' : Mem) : Prop := ∀ r, ¬ P r → ∀ c, M' r c = M r c

theorem Frame.refl (P : Nat → Prop) (M : Mem) : Frame P M M := fun _ _ _ => rfl
theorem Frame.trans {P : Nat → Prop} {M M' M'' : Mem} (h : Frame P M M') (h' : Frame P M' M'') : Frame P M M'' :=
  fun r hr c => (h' r hr c).trans (h r hr c)
theorem Frame.put {P : Nat → Prop} (M : Mem) {r : Nat} (hr : P r) (c : Nat) (b : Block) : Frame P M (put M r c b) := by
  intro r' hr' c'
  unfold Spec.Lyra2.put
  rw [if_neg]
  rintro ⟨rfl, -⟩
  exact hr' hr
theorem Frame.mono {P Q : Nat → Prop} {M M' : Mem} (h : Frame P M M') (hPQ : ∀ r, P r → Q r) : Frame Q M M' :=
  fun r hr c => h r (fun hp => hr (hPQ r hp)) c

theorem foldl_frame {α : Type} (P : Nat → Prop) (g : Sponge × Mem → α → Sponge × Mem) (l : List α)
    (h : ∀ sM, ∀ a ∈ l, Frame P sM.2 (g sM a).2) (sM : Sponge × Mem) : Frame P sM.2 (l.foldl g sM).2 := by
  induction l generalizing sM with
  | nil => exact .refl _ _
  | cons a l ih => exact (h sM a List.mem_cons_self).trans (ih (fun sM a ha => h sM a (List.mem_cons_of_mem _ ha)) _)

theorem wanderCol_frame (prev rowStar row : Nat) (sM : Sponge × Mem) (c : Nat) :
    Frame (fun r => r = row ∨ r = rowStar) sM.2 (wanderCol prev rowStar row sM c).2 :=
  (Frame.put sM.2 (.inl rfl) _ _).trans (Frame.put _ (.inr rfl) _ _)

theorem wanderRowOp_frame (C prev rowStar row : Nat) (sM : Sponge × Mem) :
    Frame (fun r => r = row ∨ r = rowStar) sM.2 ((List.range C).foldl (wanderCol prev rowStar row) sM).2 :=
  foldl_frame _ _ _ (fun sM c _ => wanderCol_frame prev rowStar row sM c) sM

theorem setupCol_frame (C prev rowStar row : Nat) (sM : Sponge × Mem) (c : Nat) :
    Frame (fun r => r = row ∨ r = rowStar) sM.2 (setupCol C prev rowStar row sM c).2 :=
  (Frame.put sM.2 (.inl rfl) _ _).trans (Frame.put _ (.inr rfl) _ _)

theorem setupRow_frame (C prev rowStar row : Nat) (sM : Sponge × Mem) :
    Frame (fun r => r = row ∨ r = rowStar) sM.2 (setupRow C prev rowStar row sM).2 :=
  foldl_frame _ _ _ (fun sM c _ => setupCol_frame C prev rowStar row sM c) sM

theorem wanderRow_frame (P : Nat → Prop) (pick : Pick) (hp : ∀ s w, P (pick s w).1) (C : Nat) (V : Wander) {row : Nat}
    (hr : P row) : Frame P V.M (wanderRow pick C V row).M :=
  (wanderRowOp_frame C V.prev (pick V.s V.word).1 row (V.s, V.M)).mono fun r h => by
    rcases h with rfl | rfl
    · exact hr
    · exact hp _ _

/-- The wandering phase writes only rows that come up. -/
theorem wander_frame (P : Nat → Prop) (order : Order) (pick : Pick) (hp : ∀ s w, P (pick s w).1)
    (ho : ∀ τ, ∀ r ∈ order τ, P r) (T C : Nat) (V : Wander) : Frame P V.M (Spec.Lyra2.wander order pick T C V).M := by
  unfold Spec.Lyra2.wander
  generalize List.range T = l
  induction l generalizing V with
  | nil => exact .refl _ _
  | cons a l ih =>
    rw [List.foldl_cons]
    refine Frame.trans ?_ (ih _)
    have := ho (a + 1)
    revert this
    generalize order (a + 1) = rows
    intro this
    induction rows generalizing V with
    | nil => exact .refl _ _
    | cons r rows ih' =>
      rw [List.foldl_cons]
      exact (wanderRow_frame P pick hp C V (this r List.mem_cons_self)).trans
        (ih' _ fun r hr => this r (List.mem_cons_of_mem _ hr))

/-- Word `i` belongs to row `r`. -/
def InRow (C r i : Nat) : Prop := 12 * C * r ≤ i ∧ i < 12 * C * (r + 1)

theorem inRow_iff {C r i : Nat} : InRow C r i ↔ ∃ c, c < C ∧ ∃ w : Fin 12, i = base C r c + w := by
  unfold InRow base
  constructor
  · rintro ⟨h1, h2⟩
    have e : 12 * C * (r + 1) = 12 * C * r + 12 * C := by ring
    have e' : 12 * (C * r) = 12 * C * r := by ring
    refine ⟨(i - 12 * C * r) / 12, by omega, ⟨(i - 12 * C * r) % 12, by omega⟩, ?_⟩
    show i = 12 * (C * r + (i - 12 * C * r) / 12) + (i - 12 * C * r) % 12
    omega
  · rintro ⟨c, hc, w, rfl⟩
    have e : 12 * C * (r + 1) = 12 * C * r + 12 * C := by ring
    have e' : 12 * (C * r) = 12 * C * r := by ring
    have := w.isLt
    omega

/-- A frame on the specification's matrix is a frame on the array. -/
theorem Rep.frame {R C : Nat} {m m' : Matrix} {M M' : Mem} (h : Rep R C m M) (h' : Rep R C m' M') {P : Nat → Prop}
    (hf : Frame P M M') {r : Nat} (hr : r < R) (hP : ¬ P r) {i : Nat} (hi : InRow C r i) : m'[i]? = m[i]? := by
  obtain ⟨c, hc, w, rfl⟩ := inRow_iff.mp hi
  rw [h.2 r hr c hc w, h'.2 r hr c hc w, hf r hP c]

/-- The array is determined by the matrix it represents. -/
theorem Rep.unique {R C : Nat} {m m' : Matrix} {M M' : Mem} (h : Rep R C m M) (h' : Rep R C m' M') (ha : Agree R C M M') :
    m = m' := by
  apply Array.ext_getElem?
  intro i
  by_cases hi : i < 12 * (R * C)
  · have hC : 0 < C := by
      by_contra hc
      have : C = 0 := by omega
      subst this; omega
    have hd := Nat.div_add_mod i (12 * C)
    have hlt : i / (12 * C) < R := by
      rw [Nat.div_lt_iff_lt_mul (by omega)]
      calc i < 12 * (R * C) := hi
        _ = R * (12 * C) := by ring
    have hmod := Nat.mod_lt i (show 0 < 12 * C by omega)
    obtain ⟨c, hc, w, e⟩ := inRow_iff.mp (show InRow C (i / (12 * C)) i from ⟨by omega, by
      rw [Nat.mul_succ]; omega⟩)
    rw [e, h.2 _ hlt c hc w, h'.2 _ hlt c hc w, ha _ hlt c hc]
  · rw [Array.getElem?_eq_none (by rw [h.1]; omega), Array.getElem?_eq_none (by rw [h'.1]; omega)]

/-- A row that is not a submask exists unless the number of rows is a power of two. -/
theorem exists_not_submask {R : Nat} (hR : 2 ≤ R) (h : ∀ j, R ≠ 2 ^ j) : ∃ r, r < R ∧ r &&& (R - 1) ≠ r := by
  obtain ⟨h1, h2⟩ := log2_bounds (show R - 1 ≠ 0 by omega)
  generalize hj : Nat.log2 (R - 1) = j at *
  have hp : 0 < 2 ^ j := by positivity
  refine ⟨2 ^ j - 1, by omega, fun e => ?_⟩
  rw [Nat.and_comm, Nat.and_two_pow_sub_one_eq_mod] at e
  have hd := Nat.div_add_mod (R - 1) (2 ^ j)
  have hq : (R - 1) / 2 ^ j = 1 := by
    apply Nat.le_antisymm
    · rw [pow_succ] at h2
      have : (R - 1) / 2 ^ j < 2 := by rw [Nat.div_lt_iff_lt_mul hp]; omega
      omega
    · rw [Nat.le_div_iff_mul_le hp]; omega
  rw [hq] at hd
  exact h (j + 1) (by rw [pow_succ]; omega)

end Proofs.Lyra2

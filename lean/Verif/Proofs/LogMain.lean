import Verif.Proofs.Log
import Verif.Proofs.Lyra2Main

/-! The log of complete calls of `lyra2` and `lyra2mod`. -/

namespace Proofs.Log
open Rust Rust.Res Model.Log Spec.Lyra2
open Model.Lyra2 (State Matrix SetupVars WanderVars init_state)
open Proofs.Lyra2 (bounds toNat_ofNat64 RepW RepWM PassPost wanderBody_ok mod_wanderBody_ok stepOf usub_one isub_one and_mask iadd_step
  wanderStep_ok maskNext_lt maskNext_returns setupVars setupVars_start setupVars_next setupStar_lt front front_ok nBlocksInput_ok
  allocMatrix_ok aget_mask lyra2_front lyra2mod_front writeInput_ok)

/-! ## Before the wandering phase -/

theorem setupRows_log {R C : Nat} (p : Profile) (hM : 12 * (R * C) < 2 ^ 60) (hR : 2 ≤ R) (hC : 0 < C) (s : State) (m : Matrix) :
    Logs (Model.Log.setupRows p (BitVec.ofNat 64 R) (BitVec.ofNat 64 C) (BitVec.ofNat 64 (12 * C)) s m)
      (Model.Lyra2.setupRows p (BitVec.ofNat 64 R) (BitVec.ofNat 64 C) (BitVec.ofNat 64 (12 * C)) s m)
      ((List.range (R - 2)).flatMap fun i => Spec.Access.setupRow C (i + 1) (setupStar (i + 2)) (i + 2)) := by
  obtain ⟨-, -, -, -, hR', -, -⟩ := bounds hM (show 0 < R by omega) hC
  unfold Model.Log.setupRows Model.Lyra2.setupRows
  rw [show (2 : BitVec 64) = BitVec.ofNat 64 2 from rfl, irangeLen_ofNat (by omega) (by omega), setupVars_start]
  refine Logs.forLoop (fun j x => x.2.2 = setupVars (j + 2)) _ _ _ rfl (fun j x hj hx => ?_) fun j x x' hj hx hb => ?_
  · obtain ⟨s, m, v⟩ := x
    dsimp only at hx ⊢
    subst hx
    have hsl := setupStar_lt (show 2 ≤ j + 2 by omega)
    refine (Logs.bind (duplexRowSetup_log p hM _ _ (prev := j + 1) (star := setupStar (j + 2)) (row := j + 2)
      (by omega) (by omega) (by omega) hC) fun x _ => Logs.bind (.quiet _) fun v _ => .pure _).cast (by simp)
  · obtain ⟨s, m, v⟩ := x
    dsimp only at hx hb
    subst hx
    obtain ⟨y, -, hb⟩ := bind_returns hb
    rw [setupVars_next p (by omega) (by omega), pure_bind] at hb
    rw [← pure_inj hb]

theorem size_vset {m m' : Matrix} {i : Nat} {x : U64} (h : vset m i x = pure m') : m'.size = m.size := by
  unfold vset at h
  split at h
  · rw [← pure_inj h]; simp
  · exact (pure_ne_throw h.symm).elim

theorem beforeWander_log (p : Profile) (k T : U64) {R C : Nat} (pwd salt : List U8) (hT : 1 ≤ T.toNat) (hR : 3 ≤ R)
    (hM : 12 * (R * C) < 2 ^ 60) (hI : 8 * nBlocks (pwd.length + salt.length) ≤ 12 * (R * C)) :
    Logs (Model.Log.beforeWander p k pwd salt T (BitVec.ofNat 64 R) (BitVec.ofNat 64 C))
      (front p k pwd salt T (BitVec.ofNat 64 R) (BitVec.ofNat 64 C))
      (Spec.Access.beforeWander pwd.length salt.length R C) := by
  have hC : 0 < C := by
    by_contra hc
    have : C = 0 := by omega
    subst this
    unfold nBlocks at hI
    omega
  obtain ⟨-, -, h12, hC', hR', -, -⟩ := bounds hM (show 0 < R by omega) hC
  have hI' : pwd.length + salt.length + 48 < 2 ^ 63 := by unfold nBlocks at hI; omega
  have hn0 : 0 < nBlocks (pwd.length + salt.length) := by unfold nBlocks; omega
  unfold Model.Log.beforeWander front
  rw [if_neg (by omega), if_neg (by rw [toNat_ofNat64 (by omega)]; omega), allocMatrix_ok p (by omega) hM hC, pure_bind]
  dsimp only
  rw [nBlocksInput_ok p hI', pure_bind]
  show Logs (Model.Log.quiet _ >>= _) _ _
  refine .bind_quiet rfl ?_
  dsimp only
  refine .bind_quiet rfl ?_
  refine (Logs.bind (writeInput_log p k pwd salt T _ _ _ hn0 (by omega) _) fun m hm =>
    Logs.bind (E := Spec.Access.absorb (12 * (R * C)) (nBlocks (pwd.length + salt.length))) ?_ fun s _ =>
    Logs.bind (squeezeRow0_log p hM s m (by omega) hC) fun x _ =>
    Logs.bind (duplexRow1_log p hM x.1 x.2 (by omega) hC) fun x _ =>
    Logs.bind (setupRows_log p hM (by omega) hC x.1 x.2) fun x _ => .pure _).cast ?_
  · have hs : m.size = 12 * (R * C) := by
      obtain ⟨m', hm', hs⟩ := writeInput_ok p k T (BitVec.ofNat 64 R) (BitVec.ofNat 64 C) pwd salt hM hI
      rw [hm'] at hm
      rw [← pure_inj hm]
      exact hs.1
    rw [← hs]
    exact absorbInput_log (by omega) m init_state
  · unfold Spec.Access.beforeWander Spec.Access.setup
    simp

/-! ## Wandering -/

/-- The log of the row operations on `rows`, if the one on row `x` from the variables `V` has log `ev V x`. -/
def path (pick : Pick) (C : Nat) (ev : Wander → Nat → List Event) : Wander → List Nat → List Event
  | _, [] => []
  | V, x :: xs => ev V x ++ path pick C ev (Spec.Lyra2.wanderRow pick C V x) xs

theorem path_append (pick : Pick) (C : Nat) (ev : Wander → Nat → List Event) (V : Wander) (xs ys : List Nat) :
    path pick C ev V (xs ++ ys) = path pick C ev V xs ++ path pick C ev (xs.foldl (Spec.Lyra2.wanderRow pick C) V) ys := by
  induction xs generalizing V with
  | nil => rfl
  | cons x xs ih => rw [List.cons_append, path, path, ih, List.append_assoc]; rfl

theorem pass_log {σ : Type} {R C τ : Nat} {pick : Pick} {body : σ → Logged (σ ⊕ σ)} {body' : σ → Res (σ ⊕ σ)}
    {ev : Wander → Nat → List Event} (RW : σ → Nat → Wander → Prop) (hR : 0 < R)
    (step : ∀ v x V, x < R → RW v x V → (body' v).Sat (PassPost RW (maskNext R τ x) (Spec.Lyra2.wanderRow pick C V x)))
    (hlog : ∀ v x V, x < R → RW v x V → Logs (body v) (body' v) (ev V x))
    (fuel n : Nat) (hn : 1 ≤ n) (hf : n ≤ fuel) (x : Nat) (hx : x < R) (hret : (maskNext R τ)^[n] x = 0)
    (v : σ) (V : Wander) (h : RW v x V) :
    Logs (Model.Log.loop body v) (Rust.loop body' v) (path pick C ev V (orbit (maskNext R τ) fuel x)) := by
  intro a ha log
  unfold Model.Log.loop
  induction fuel generalizing n x v V log with
  | zero => omega
  | succ fuel ih =>
    rw [loop_step] at ha ⊢
    obtain ⟨r, hb, hr⟩ := step v x V hx h
    rw [hb, pure_bind] at ha
    have hl := hlog v x V hx h r hb log
    unfold roundOf
    dsimp only
    rw [hl, pure_bind]
    unfold orbit
    match r with
    | .inl v' =>
      obtain ⟨h1, h2⟩ := hr
      rw [if_neg h1, path]
      dsimp only at ha ⊢
      rw [pure_bind]
      dsimp only
      obtain ⟨n', rfl⟩ : ∃ n', n = n' + 1 := ⟨n - 1, by omega⟩
      rw [Function.iterate_succ_apply] at hret
      have hn' : 1 ≤ n' := by
        by_contra hc
        have : n' = 0 := by omega
        subst this
        exact h1 hret
      have := ih n' hn' (by omega) _ (maskNext_lt hR _ _) hret v' _ h2 ha (log ++ ev V x)
      rw [List.append_assoc] at this
      exact this
    | .inr v' =>
      obtain ⟨h1, h2⟩ := hr
      rw [if_pos h1, path, path, List.append_nil]
      dsimp only at ha ⊢
      rw [pure_bind, ← pure_inj ha]

theorem passes_log {σ : Type} {R C T : Nat} {pick : Pick} {pass : Nat → σ → Logged σ} {pass' : Nat → σ → Res σ}
    {ev : Wander → Nat → List Event} (RW : σ → Nat → Wander → Prop)
    (step : ∀ τ v V, RW v 0 V → (pass' τ v).Sat (fun v' => RW v' 0 ((Order.mask R τ).foldl (Spec.Lyra2.wanderRow pick C) V)))
    (hlog : ∀ τ v V, RW v 0 V → Logs (pass τ v) (pass' τ v) (path pick C ev V (Order.mask R τ)))
    (v : σ) (V : Wander) (h : RW v 0 V) :
    Logs (Model.Log.forLoop 1 T pass v) (Rust.forLoop 1 T pass' v)
      (path pick C ev V ((List.range T).flatMap fun t => Order.mask R (t + 1))) := by
  have e : path pick C ev V ((List.range T).flatMap fun t => Order.mask R (t + 1)) =
      (List.range T).flatMap fun j => path pick C ev ((List.range j).foldl
        (fun v i => (Order.mask R (i + 1)).foldl (Spec.Lyra2.wanderRow pick C) v) V) (Order.mask R (j + 1)) := by
    induction T with
    | zero => rfl
    | succ T ih =>
      rw [List.range_succ, List.flatMap_append, List.flatMap_append, path_append, ih, List.foldl_flatMap]
      simp
  rw [e]
  refine Logs.forLoop (fun j v' => RW v' 0 ((List.range j).foldl
    (fun v i => (Order.mask R (i + 1)).foldl (Spec.Lyra2.wanderRow pick C) v) V)) 1 T v h (fun j v' _ hv => ?_) fun j v' v'' _ hv hb => ?_
  · rw [Nat.add_comm 1 j]
    exact hlog _ _ _ hv
  · rw [List.range_succ, List.foldl_append]
    obtain ⟨r, hr, hr'⟩ := step (j + 1) v' _ hv
    rw [Nat.add_comm 1 j, hr] at hb
    rw [← pure_inj hb]
    exact hr'

/-- What a row operation of `lyra2` logs. -/
def ev (R C : Nat) (V : Wander) (x : Nat) : List Event := Spec.Access.wanderRow C V.prev (Pick.mask R V.s V.word).1 x

/-- What a row operation of `lyra2mod` logs. -/
def evMod (R C : Nat) (V : Wander) (x : Nat) : List Event :=
  [.state (V.word.toNat % 16), .state ((Pick.rev3 R V.s V.word).2.toNat % 16)] ++
    Spec.Access.wanderRow C V.prev (Pick.rev3 R V.s V.word).1 x

theorem path_ev (R C : Nat) (V : Wander) (rows : List Nat) :
    path (Pick.mask R) C (ev R C) V rows = Spec.Access.wander C V.prev rows (Spec.Access.stars (Pick.mask R) C V rows) := by
  induction rows generalizing V with
  | nil => rfl
  | cons x xs ih => rw [path, ih]; rfl

theorem path_evMod (R C : Nat) (V : Wander) (rows : List Nat) :
    path (Pick.rev3 R) C (evMod R C) V rows = Spec.Access.wanderRev3 C V.prev rows (Spec.Access.choices R C V rows) := by
  induction rows generalizing V with
  | nil => rfl
  | cons x xs ih => rw [path, ih]; rfl

section wander
variable {R C : Nat} (p : Profile) (hM : 12 * (R * C) < 2 ^ 60) (hR : 3 ≤ R) (hC : 0 < C)
include hM hR hC

theorem wanderBody_log (τ : Nat) (v : WanderVars) (x : Nat) (V : Wander) (hx : x < R) (h : RepW R C v x V) :
    Logs (Model.Log.wanderBody p (BitVec.ofNat 64 R) (BitVec.ofNat 64 C) (BitVec.ofNat 64 (12 * C)) (stepOf R τ) v)
      (Model.Lyra2.wanderBody p (BitVec.ofNat 64 R) (BitVec.ofNat 64 C) (BitVec.ofNat 64 (12 * C)) (stepOf R τ) v)
      (ev R C V x) := by
  obtain ⟨-, -, -, -, hR', -, -⟩ := bounds hM hx hC
  obtain ⟨hs, hm, hp, hp', hrow, -, -⟩ := h
  unfold Model.Log.wanderBody Model.Lyra2.wanderBody
  rw [usub_one p (by omega) hR', pure_bind]
  refine .bind_quiet rfl ?_
  dsimp only
  rw [(and_mask _ (by omega) hR').1, hp, hrow]
  have ha := (and_mask v.state[0] (show 1 ≤ R by omega) hR').2
  refine (Logs.bind (duplexRow_log p hM v.state v.m hp' ha hx hC) fun y _ =>
    Logs.bind (E := []) (E' := []) (.quiet _) fun next _ => Logs.bind (E := []) (E' := []) (.quiet _) fun mask _ => ?_).cast ?_
  · split
    · exact .pure _
    · exact .pure _
  · unfold ev Pick.mask
    rw [hs]
    simp

theorem wander_log (T : U64) {v : WanderVars} {V : Wander} (h : RepW R C v 0 V) :
    Logs (Model.Log.wander p T (BitVec.ofNat 64 R) (BitVec.ofNat 64 C) (BitVec.ofNat 64 (12 * C)) v)
      (Model.Lyra2.wander p T (BitVec.ofNat 64 R) (BitVec.ofNat 64 C) (BitVec.ofNat 64 (12 * C)) v)
      (path (Pick.mask R) C (ev R C) V ((List.range T.toNat).flatMap fun t => Order.mask R (t + 1))) := by
  obtain ⟨-, -, -, -, hR', -, -⟩ := bounds hM (show 0 < R by omega) hC
  unfold Model.Log.wander Model.Lyra2.wander
  refine passes_log (RepW R C) (fun τ v V hv => ?_) (fun τ v V hv => ?_) v V h
  · rw [wanderStep_ok p hR hR', pure_bind]
    obtain ⟨n, hn1, hn2, hn3⟩ := maskNext_returns (show 0 < R by omega) (by omega) τ
    exact Proofs.Lyra2.pass_sim (RepW R C) (by omega) (fun v x V hx hv => wanderBody_ok p hM hR hC τ v x V hx hv) R n hn1 hn2 0
      (by omega) hn3 v V hv
  · rw [wanderStep_ok p hR hR', pure_bind]
    refine .bind_quiet rfl ?_
    obtain ⟨n, hn1, hn2, hn3⟩ := maskNext_returns (show 0 < R by omega) (by omega) τ
    exact pass_log (RepW R C) (by omega) (fun v x V hx hv => wanderBody_ok p hM hR hC τ v x V hx hv)
      (fun v x V hx hv => wanderBody_log p hM hR hC τ v x V hx hv) R n hn1 hn2 0 (by omega) hn3 v V hv

theorem modWanderBody_log (τ : Nat) (v : Model.Lyra2mod.WanderVars) (x : Nat) (V : Wander) (hx : x < R) (h : RepWM R C v x V) :
    Logs (Model.Log.modWanderBody p (BitVec.ofNat 64 R) (BitVec.ofNat 64 C) (BitVec.ofNat 64 (12 * C)) (stepOf R τ) v)
      (Model.Lyra2mod.wanderBody p (BitVec.ofNat 64 R) (BitVec.ofNat 64 C) (BitVec.ofNat 64 (12 * C)) (stepOf R τ) v)
      (evMod R C V x) := by
  obtain ⟨-, -, -, -, hR', -, -⟩ := bounds hM hx hC
  obtain ⟨hs, hm, hp, hp', hrow, -, -, hi⟩ := h
  have hand : ∀ i : Nat, i &&& 0xf = i % 16 := fun i => Nat.and_two_pow_sub_one_eq_mod i 4
  unfold Model.Log.modWanderBody Model.Lyra2mod.wanderBody
  simp only [aget_mask]
  simp only [hand, usub_one p (show 1 ≤ R by omega) hR', pure_bind, Proofs.Lyra2.mod_duplexRow]
  unfold evMod
  refine .cast (E := .state (v.index.toNat % 16) :: .state ((v.state[v.index.toNat % 16]'(Nat.mod_lt _ (by decide))).toNat % 16) ::
    Spec.Access.wanderRow C V.prev (Pick.rev3 R V.s V.word).1 x) ?_ ?_
  · refine .emit ?_
    refine .bind_quiet rfl ?_
    refine .emit ?_
    refine .bind_quiet rfl ?_
    refine .bind_quiet rfl ?_
    rw [(and_mask _ (by omega) hR').1, hp, hrow]
    have ha := (and_mask (v.state[(v.state[v.index.toNat % 16]'(Nat.mod_lt _ (by decide))).toNat % 16]'(Nat.mod_lt _ (by decide)))
      (show 1 ≤ R by omega) hR').2
    refine (Logs.bind (duplexRow_log p hM v.state v.m hp' ha hx hC) fun y _ =>
      Logs.bind (E := []) (E' := []) (.quiet _) fun next _ => Logs.bind (E := []) (E' := []) (.quiet _) fun mask _ => ?_).cast ?_
    · split
      · exact .pure _
      · exact .pure _
    · obtain ⟨vs, vm, vp, vr, va, vi⟩ := v
      dsimp only at *
      subst hs hi
      rw [List.append_nil, List.append_nil]
      rfl
  · obtain ⟨vs, vm, vp, vr, va, vi⟩ := v
    dsimp only at *
    subst hs hi
    rfl

theorem modWander_log (T : U64) {v : Model.Lyra2mod.WanderVars} {V : Wander} (h : RepWM R C v 0 V) :
    Logs (Model.Log.modWander p T (BitVec.ofNat 64 R) (BitVec.ofNat 64 C) (BitVec.ofNat 64 (12 * C)) v)
      (Model.Lyra2mod.wander p T (BitVec.ofNat 64 R) (BitVec.ofNat 64 C) (BitVec.ofNat 64 (12 * C)) v)
      (path (Pick.rev3 R) C (evMod R C) V ((List.range T.toNat).flatMap fun t => Order.mask R (t + 1))) := by
  obtain ⟨-, -, -, -, hR', -, -⟩ := bounds hM (show 0 < R by omega) hC
  unfold Model.Log.modWander Model.Lyra2mod.wander
  refine passes_log (RepWM R C) (fun τ v V hv => ?_) (fun τ v V hv => ?_) v V h
  · rw [Proofs.Lyra2.mod_wanderStep, wanderStep_ok p hR hR', pure_bind]
    obtain ⟨n, hn1, hn2, hn3⟩ := maskNext_returns (show 0 < R by omega) (by omega) τ
    exact Proofs.Lyra2.pass_sim (RepWM R C) (by omega) (fun v x V hx hv => mod_wanderBody_ok p hM hR hC τ v x V hx hv) R n hn1 hn2 0
      (by omega) hn3 v V hv
  · rw [Proofs.Lyra2.mod_wanderStep, wanderStep_ok p hR hR', pure_bind]
    refine .bind_quiet rfl ?_
    obtain ⟨n, hn1, hn2, hn3⟩ := maskNext_returns (show 0 < R by omega) (by omega) τ
    exact pass_log (RepWM R C) (by omega) (fun v x V hx hv => mod_wanderBody_ok p hM hR hC τ v x V hx hv)
      (fun v x V hx hv => modWanderBody_log p hM hR hC τ v x V hx hv) R n hn1 hn2 0 (by omega) hn3 v V hv

end wander

/-! ## Wrap-up -/

theorem wrapUp_log {R C : Nat} (p : Profile) (hM : 12 * (R * C) < 2 ^ 60) (hC : 0 < C) (k : U64) (hk : k.toNat ≤ 96) {star : Nat}
    {x y : I64} (hs : star < R) (m : Matrix) (hm : m.size = 12 * (R * C)) (s : State) :
    Logs (Model.Log.wrapUp p k (BitVec.ofNat 64 (12 * C)) (BitVec.ofNat 64 star) m s)
      (Model.Lyra2.wrapUp p k (BitVec.ofNat 64 (12 * C)) ⟨s, m, x, y, BitVec.ofNat 64 star⟩)
      (Spec.Access.wrapUp (12 * (R * C)) C star k.toNat) := by
  obtain ⟨-, -, h12, hC', hR', -, -⟩ := bounds hM hs hC
  have hlt : star * (12 * C) ≤ 12 * (R * C) := by
    calc star * (12 * C) ≤ R * (12 * C) := Nat.mul_le_mul_right _ hs.le
      _ = 12 * (R * C) := by ring
  unfold Model.Log.wrapUp Model.Lyra2.wrapUp
  dsimp only
  rw [imul_ofNat p (by omega) (by omega) (by omega), pure_bind]
  refine .bind_quiet rfl ?_
  rw [toNat_ofNat64 (by omega)]
  refine (Logs.bind (.tail _ _) fun r _ => Logs.bind (absorb_block_log _ _) fun s _ => squeeze_log p s k hk).cast ?_
  unfold Spec.Access.wrapUp
  rw [hm, Nat.mul_comm star]
  rfl

/-! ## Calls -/

theorem stars_last (pick : Pick) (C : Nat) (V : Wander) (rows : List Nat) (a : Nat) (h : rows ≠ []) :
    (rows.foldl (Spec.Lyra2.wanderRow pick C) V).rowStar = (Spec.Access.stars pick C V rows).getLastD a := by
  induction rows generalizing V a with
  | nil => exact (h rfl).elim
  | cons x xs ih =>
    rw [List.foldl_cons, Spec.Access.stars, List.getLastD_cons]
    by_cases hx : xs = []
    · subst hx; rfl
    · exact ih _ _ hx

theorem choices_stars (R C : Nat) (V : Wander) (rows : List Nat) :
    (Spec.Access.choices R C V rows).map (fun c => c.2.2) = Spec.Access.stars (Pick.rev3 R) C V rows := by
  induction rows generalizing V with
  | nil => rfl
  | cons x xs ih => rw [Spec.Access.choices, List.map_cons, ih, Spec.Access.stars]

theorem rows_ne_nil {R T : Nat} (hR : 0 < R) (hT : 1 ≤ T) : Spec.Access.rows R T ≠ [] := by
  obtain ⟨n, rfl⟩ : ∃ n, T = n + 1 := ⟨T - 1, by omega⟩
  unfold Spec.Access.rows
  rw [List.range_succ_eq_map, List.flatMap_cons]
  intro h
  exact Proofs.Lyra2.mask_ne_nil hR 1 (List.append_eq_nil_iff.mp h).1

theorem wander_rows (pick : Pick) (R C T : Nat) (V : Wander) :
    Spec.Lyra2.wander (Order.mask R) pick T C V = (Spec.Access.rows R T).foldl (Spec.Lyra2.wanderRow pick C) V := by
  unfold Spec.Lyra2.wander Spec.Access.rows
  rw [List.foldl_flatMap]

theorem stars_forget (pick : Pick) (C : Nat) (V : Wander) (a : Nat) (rows : List Nat) :
    Spec.Access.stars pick C { V with rowStar := a } rows = Spec.Access.stars pick C V rows := by
  cases rows <;> rfl

theorem choices_forget (R C : Nat) (V : Wander) (a : Nat) (rows : List Nat) :
    Spec.Access.choices R C { V with rowStar := a } rows = Spec.Access.choices R C V rows := by
  cases rows <;> rfl

theorem foldl_forget (pick : Pick) (C : Nat) (V : Wander) (a : Nat) {rows : List Nat} (h : rows ≠ []) :
    rows.foldl (Spec.Lyra2.wanderRow pick C) { V with rowStar := a } = rows.foldl (Spec.Lyra2.wanderRow pick C) V := by
  cases rows with
  | nil => exact (h rfl).elim
  | cons x xs => rfl

theorem lyra2_log (p : Profile) (k T R C : U64) (pwd salt : List U8)
    (h : Domain k.toNat pwd.length salt.length T.toNat R.toNat C.toNat) :
    Logs (Model.Log.lyra2 p k pwd salt T R C) (Model.Lyra2.lyra2 p k pwd salt T R C)
      (Spec.Access.call k.toNat pwd.length salt.length T.toNat R.toNat C.toNat
        (Spec.Access.stars (Pick.mask R.toNat) C.toNat
          (Spec.Access.afterSetup (crateWords k.toNat pwd salt T.toNat R.toNat C.toNat) R.toNat C.toNat)
          (Spec.Access.rows R.toNat T.toNat))) := by
  have hC := Proofs.Lyra2.Domain.cols h
  obtain ⟨hT, hR, hk, hmem, hin⟩ := h
  have hM : 12 * (R.toNat * C.toNat) < 2 ^ 60 := by omega
  rw [lyra2_front, if_neg (by omega), if_neg (by omega)]
  unfold Model.Log.lyra2 Spec.Access.call
  have hfront := front_ok p k T pwd salt hR hM hin
  have hlog := beforeWander_log p k T pwd salt hT hR hM hin
  have hw := @wander_log R.toNat C.toNat p hM hR hC T
  have hw' := @Proofs.Lyra2.wander_ok R.toNat C.toNat p hM hR hC T
  simp only [BitVec.ofNat_toNat, BitVec.setWidth_eq] at hfront hlog hw hw'
  rw [List.append_assoc]
  show Logs _ (front p k pwd salt T R C >>= fun x => _) _
  refine Logs.bind hlog fun x hx => ?_
  obtain ⟨y, hy, hy'⟩ := hfront
  rw [hy] at hx
  have := pure_inj hx
  subst this
  obtain ⟨l, s, m, v⟩ := y
  obtain ⟨h1, ⟨h2, h3⟩, h4⟩ := hy'
  dsimp only at h1 h2 h3 h4 ⊢
  subst h1 h4
  unfold Spec.Access.afterSetup
  change s = (Proofs.Lyra2.specFront _ _ _).1 at h2
  have hrep : RepW R.toNat C.toNat ⟨s, m, (setupVars R.toNat).prev, 0, (setupVars R.toNat).rowa⟩ 0
      ⟨s, (Proofs.Lyra2.specFront (crateWords k.toNat pwd salt T.toNat R.toNat C.toNat) R.toNat C.toNat).2, R.toNat - 1,
        setupStar R.toNat, 0⟩ :=
    ⟨rfl, h3, rfl, by show R.toNat - 1 < R.toNat; omega, rfl, rfl, by
      have := setupStar_lt (show 2 ≤ R.toNat by omega); show setupStar R.toNat < R.toNat; omega⟩
  have hne := rows_ne_nil (show 0 < R.toNat by omega) hT
  have hw1 := hw hrep
  change Logs _ _ (path _ _ _ _ (Spec.Access.rows R.toNat T.toNat)) at hw1
  rw [path_ev] at hw1
  have hw2 := hw' hrep
  rw [wander_rows] at hw2
  dsimp only at hw1
  subst h2
  rw [stars_forget (V := ⟨_, _, _, 0, _⟩)] at hw1
  rw [foldl_forget (V := ⟨_, _, _, 0, _⟩) (h := hne)] at hw2
  refine Logs.bind hw1 fun w hw => ?_
  obtain ⟨w', hw3, hw4⟩ := hw2
  rw [hw3] at hw
  have := pure_inj hw
  subst this
  obtain ⟨ws, wm, wp, wr, wa⟩ := w'
  have e1 := hw4.rowa
  dsimp only at e1 ⊢
  subst e1
  have := wrapUp_log p hM hC k hk hw4.rowa_lt wm hw4.m.1 ws (x := wp) (y := wr)
  rw [stars_last (a := 0) (h := hne)] at this
  rw [stars_last (a := 0) (h := hne)]
  exact this

theorem lyra2mod_log (p : Profile) (k T R C : U64) (pwd salt : List U8)
    (h : Domain k.toNat pwd.length salt.length T.toNat R.toNat C.toNat) :
    Logs (Model.Log.lyra2mod p k pwd salt T R C) (Model.Lyra2mod.lyra2mod p k pwd salt T R C)
      (Spec.Access.callRev3 k.toNat pwd.length salt.length T.toNat R.toNat C.toNat
        (Spec.Access.choices R.toNat C.toNat
          (Spec.Access.afterSetup (crateWords k.toNat pwd salt T.toNat R.toNat C.toNat) R.toNat C.toNat)
          (Spec.Access.rows R.toNat T.toNat))) := by
  have hC := Proofs.Lyra2.Domain.cols h
  obtain ⟨hT, hR, hk, hmem, hin⟩ := h
  have hM : 12 * (R.toNat * C.toNat) < 2 ^ 60 := by omega
  rw [lyra2mod_front, if_neg (by omega), if_neg (by omega)]
  unfold Model.Log.lyra2mod Spec.Access.callRev3
  have hfront := front_ok p k T pwd salt hR hM hin
  have hlog := beforeWander_log p k T pwd salt hT hR hM hin
  have hw := @modWander_log R.toNat C.toNat p hM hR hC T
  have hw' := @Proofs.Lyra2.mod_wander_ok R.toNat C.toNat p hM hR hC T
  simp only [BitVec.ofNat_toNat, BitVec.setWidth_eq] at hfront hlog hw hw'
  rw [List.append_assoc, choices_stars]
  show Logs _ (front p k pwd salt T R C >>= fun x => _) _
  refine Logs.bind hlog fun x hx => ?_
  obtain ⟨y, hy, hy'⟩ := hfront
  rw [hy] at hx
  have := pure_inj hx
  subst this
  obtain ⟨l, s, m, v⟩ := y
  obtain ⟨h1, ⟨h2, h3⟩, h4⟩ := hy'
  dsimp only at h1 h2 h3 h4 ⊢
  subst h1 h4
  unfold Spec.Access.afterSetup
  change s = (Proofs.Lyra2.specFront _ _ _).1 at h2
  have hrep : RepWM R.toNat C.toNat ⟨s, m, (setupVars R.toNat).prev, 0, (setupVars R.toNat).rowa, 0⟩ 0
      ⟨s, (Proofs.Lyra2.specFront (crateWords k.toNat pwd salt T.toNat R.toNat C.toNat) R.toNat C.toNat).2, R.toNat - 1,
        setupStar R.toNat, 0⟩ :=
    ⟨rfl, h3, rfl, by show R.toNat - 1 < R.toNat; omega, rfl, rfl, by
      have := setupStar_lt (show 2 ≤ R.toNat by omega); show setupStar R.toNat < R.toNat; omega, rfl⟩
  have hne := rows_ne_nil (show 0 < R.toNat by omega) hT
  have hw1 := hw hrep
  change Logs _ _ (path _ _ _ _ (Spec.Access.rows R.toNat T.toNat)) at hw1
  rw [path_evMod] at hw1
  have hw2 := hw' hrep
  rw [wander_rows] at hw2
  dsimp only at hw1
  subst h2
  rw [choices_forget (V := ⟨_, _, _, 0, _⟩)] at hw1
  rw [foldl_forget (V := ⟨_, _, _, 0, _⟩) (h := hne)] at hw2
  refine Logs.bind hw1 fun w hw => ?_
  obtain ⟨w', hw3, hw4⟩ := hw2
  rw [hw3] at hw
  have := pure_inj hw
  subst this
  obtain ⟨ws, wm, wp, wr, wa, wi⟩ := w'
  have e1 := hw4.rowa
  dsimp only at e1 ⊢
  subst e1
  rw [Proofs.Lyra2.mod_wrapUp]
  dsimp only
  have := wrapUp_log p hM hC k hk hw4.rowa_lt wm hw4.m.1 ws (x := wp) (y := wr)
  rw [stars_last (a := 0) (h := hne)] at this
  rw [stars_last (a := 0) (h := hne)]
  exact this

end Proofs.Log

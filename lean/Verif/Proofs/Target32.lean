import Verif.Proofs.Target64

/-! Whatever a run with 64-bit `usize` returns, the run with 32-bit `usize` returns too, provided the matrix can be allocated. -/

namespace Proofs.Target
open Rust Rust.Res Model.Target
open Model.Lyra2 (State Matrix SetupVars WanderVars)

/-- If the first computation returns, so does the second, with related values. -/
def Ref {α β : Type} (m : Res α) (m' : Res β) (R : α → β → Prop) : Prop := ∀ a, m = pure a → ∃ b, m' = pure b ∧ R a b

theorem Ref.pure {α β : Type} {a : α} {b : β} {R : α → β → Prop} (h : R a b) : Ref (pure a) (pure b) R := by
  intro x hx
  rw [← pure_inj hx]
  exact ⟨b, rfl, h⟩

theorem Ref.bind {α β α' β' : Type} {m : Res α} {m' : Res β} {f : α → Res α'} {f' : β → Res β'} {R : α → β → Prop}
    {R' : α' → β' → Prop} (h : Ref m m' R) (hf : ∀ a b, R a b → Ref (f a) (f' b) R') : Ref (m >>= f) (m' >>= f') R' := by
  intro x hx
  rcases Res.cases m with ⟨a, ha⟩ | ⟨e, he⟩ | hd
  · obtain ⟨b, hb, hr⟩ := h a ha
    rw [ha, pure_bind] at hx
    rw [hb, pure_bind]
    exact hf a b hr x hx
  · rw [he] at hx; cases hx
  · rw [show m = none from hd] at hx; cases hx

theorem Ref.mono {α β : Type} {m : Res α} {m' : Res β} {R R' : α → β → Prop} (h : Ref m m' R) (hr : ∀ a b, R a b → R' a b) :
    Ref m m' R' := fun a ha => by
  obtain ⟨b, hb, h⟩ := h a ha
  exact ⟨b, hb, hr a b h⟩

/-- The same computation, with a property of its value. -/
theorem Ref.of_post {α : Type} {m : Res α} {Q : α → Prop} (h : m.Post Q) : Ref m m (fun a b => a = b ∧ Q a) :=
  fun a ha => ⟨a, ha, rfl, h.of_eq_pure ha⟩

theorem Ref.refl {α : Type} (m : Res α) : Ref m m (fun a b => a = b) := fun a ha => ⟨a, ha, rfl⟩

theorem forLoop_ref {σ : Type} {body body' : Nat → σ → Res σ} (Q : σ → Prop)
    (step : ∀ i s, Q s → Ref (body i s) (body' i s) (fun a b => a = b ∧ Q a)) (i n : Nat) (s : σ) (h : Q s) :
    Ref (forLoop i n body s) (forLoop i n body' s) (fun a b => a = b ∧ Q a) := by
  induction n generalizing i s with
  | zero => exact .pure ⟨rfl, h⟩
  | succ n ih =>
    refine Ref.bind (step i s h) fun a b hab => ?_
    obtain ⟨rfl, ha⟩ := hab
    exact ih (i + 1) a ha

theorem unroll12_ref {σ : Type} {stmt stmt' : Fin 12 → σ → Res σ} (Q : σ → Prop)
    (step : ∀ w s, Q s → Ref (stmt w s) (stmt' w s) (fun a b => a = b ∧ Q a)) (s : σ) (h : Q s) :
    Ref (unroll12 stmt s) (unroll12 stmt' s) (fun a b => a = b ∧ Q a) := by
  unfold unroll12
  generalize List.finRange 12 = l
  induction l generalizing s with
  | nil => exact .pure ⟨rfl, h⟩
  | cons w l ih =>
    rw [List.foldlM_cons, List.foldlM_cons]
    refine Ref.bind (step w s h) fun a b hab => ?_
    obtain ⟨rfl, ha⟩ := hab
    exact ih a ha

theorem loop_ref {σ : Type} {body body' : σ → Res (σ ⊕ σ)} (P : Nat → σ → Prop) (Q : σ → Prop)
    (step : ∀ k s, P k s → Ref (body s) (body' s) (fun a b => a = b ∧ match a with
      | .inl s' => ∃ k' < k, P k' s'
      | .inr s' => Q s')) (k : Nat) (s : σ) (h : P k s) :
    Ref (loop body s) (loop body' s) (fun a b => a = b ∧ Q a) := by
  induction k using Nat.strong_induction_on generalizing s with
  | _ k ih =>
    rw [loop_step, loop_step]
    refine Ref.bind (step k s h) fun a b hab => ?_
    obtain ⟨rfl, ha⟩ := hab
    match a, ha with
    | .inl s', ⟨k', hk', h'⟩ => exact ih k' hk' s' h'
    | .inr s', h' => exact .pure ⟨rfl, h'⟩

/-- A pass: as `Proofs.Lyra2.pass_post`. -/
theorem pass_ref {σ : Type} {body body' : σ → Res (σ ⊕ σ)} (row : σ → BitVec 64) (step mask : BitVec 64) (Q : σ → Prop)
    (h : ∀ v, Q v → Ref (body v) (body' v) (fun a b => a = b ∧ Lyra2.BodyPost row step mask Q v a)) (v : σ) (hv : row v = 0)
    (hQ : Q v) : Ref (loop body v) (loop body' v) (fun a b => a = b ∧ row a = 0 ∧ Q a) := by
  obtain ⟨n, hn1, -, hn⟩ := Lyra2.mask_orbit_returns step mask
  refine loop_ref (fun k v => 1 ≤ k ∧ (fun x => (x + step) &&& mask)^[k] (row v) = 0 ∧ Q v)
    (fun v' => row v' = 0 ∧ Q v') (fun k v ⟨hk, hit, hq⟩ => ?_) n v ⟨hn1, by rw [hv]; exact hn, hQ⟩
  refine (h v hq).mono fun r r' hr => ⟨hr.1, ?_⟩
  match r, hr.2 with
  | .inl v', ⟨h1, h2, h3⟩ =>
    obtain ⟨k', rfl⟩ : ∃ k', k = k' + 1 := ⟨k - 1, by omega⟩
    rw [Function.iterate_succ_apply] at hit
    refine ⟨k', by omega, ?_, by rw [h1]; exact hit, h3⟩
    by_contra hk'
    have : k' = 0 := by omega
    subst this
    exact h2 (h1.trans hit)
  | .inr v', h => exact h

/-! ## Accesses to the matrix -/

theorem vget_ref {m : Matrix} (hm : m.size < 2 ^ 32) (n : Nat) : Ref (vget m n) (vget m (n % 2 ^ 32)) (fun a b => a = b) := by
  intro a ha
  have := (vget_post m n).of_eq_pure ha
  rw [Nat.mod_eq_of_lt (by omega)]
  exact ⟨a, ha, rfl⟩

theorem vset_ref {m : Matrix} {L : Nat} (hL : L < 2 ^ 32) (hm : m.size = L) (n : Nat) (x : U64) :
    Ref (vset m n x) (vset m (n % 2 ^ 32) x) (fun a b => a = b ∧ a.size = L) := by
  intro a ha
  have := (vset_post m n x).of_eq_pure ha
  rw [Nat.mod_eq_of_lt (by omega)]
  exact ⟨a, ha, rfl, by omega⟩

theorem splitRight_ref {m : Matrix} (hm : m.size < 2 ^ 32) (n : Nat) :
    Ref (splitRight m n) (splitRight m (n % 2 ^ 32)) (fun a b => a = b) := by
  intro a ha
  have : n ≤ m.size := by
    unfold splitRight at ha
    split at ha
    · assumption
    · cases ha
  rw [Nat.mod_eq_of_lt (by omega)]
  exact ⟨a, ha, rfl⟩

theorem idxRow0_ref (p : Profile) (i : U64) (w : Fin 12) :
    Ref (Model.Lyra2.idxRow0 p i w) (idxRow0 32 p i w) (fun a b => b = a % 2 ^ 32) := by
  unfold Model.Lyra2.idxRow0 idxRow0
  refine Ref.bind (.refl _) fun a _ h => ?_; subst h
  refine Ref.bind (.refl _) fun b _ h => ?_; subst h
  exact .pure rfl

theorem idxRow1Rev_ref (p : Profile) (C : U64) (l : I64) (i : U64) (w : Fin 12) :
    Ref (Model.Lyra2.idxRow1Rev p C l i w) (idxRow1Rev 32 p C l i w) (fun a b => b = a % 2 ^ 32) := by
  unfold Model.Lyra2.idxRow1Rev idxRow1Rev
  refine Ref.bind (.refl _) fun a _ h => ?_; subst h
  refine Ref.bind (.refl _) fun b _ h => ?_; subst h
  refine Ref.bind (.refl _) fun c _ h => ?_; subst h
  refine Ref.bind (.refl _) fun d _ h => ?_; subst h
  refine Ref.bind (.refl _) fun e _ h => ?_; subst h
  exact .pure rfl

theorem idx_ref (p : Profile) (l : I64) (i : U64) (r : I64) (w : Fin 12) :
    Ref (Model.Lyra2.idx p l i r w) (idx 32 p l i r w) (fun a b => b = a % 2 ^ 32) := by
  unfold Model.Lyra2.idx idx
  refine Ref.bind (.refl _) fun a _ h => ?_; subst h
  refine Ref.bind (.refl _) fun b _ h => ?_; subst h
  refine Ref.bind (.refl _) fun c _ h => ?_; subst h
  refine Ref.bind (.refl _) fun d _ h => ?_; subst h
  exact .pure rfl

theorem idxRev_ref (p : Profile) (C : U64) (l : I64) (i : U64) (r : I64) (w : Fin 12) :
    Ref (Model.Lyra2.idxRev p C l i r w) (idxRev 32 p C l i r w) (fun a b => b = a % 2 ^ 32) := by
  unfold Model.Lyra2.idxRev idxRev
  refine Ref.bind (.refl _) fun a _ h => ?_; subst h
  refine Ref.bind (.refl _) fun b _ h => ?_; subst h
  refine Ref.bind (.refl _) fun c _ h => ?_; subst h
  refine Ref.bind (.refl _) fun c' _ h => ?_; subst h
  refine Ref.bind (.refl _) fun d _ h => ?_; subst h
  refine Ref.bind (.refl _) fun e _ h => ?_; subst h
  exact .pure rfl

/-! ## Rows -/

variable {L : Nat}

theorem squeezeRow0_ref (hL : L < 2 ^ 32) (p : Profile) (C : U64) (s : State) (m : Matrix) (hm : m.size = L) :
    Ref (Model.Lyra2.squeezeRow0 p C s m) (squeezeRow0 32 p C s m) (fun a b => a = b ∧ a.2.size = L) := by
  unfold Model.Lyra2.squeezeRow0 squeezeRow0
  refine Ref.bind (.refl _) fun a _ h => ?_; subst h
  refine Ref.bind (.refl _) fun b _ h => ?_; subst h
  refine Ref.bind (forLoop_ref (fun x : State × Matrix × I64 => x.2.1.size = L) (fun i x hx => ?_) _ _ _ hm) fun x y h => ?_
  · obtain ⟨s, m, ptr⟩ := x
    dsimp only at hx ⊢
    refine Ref.bind (unroll12_ref (fun m : Matrix => m.size = L) (fun w m hm => ?_) m hx) fun x y h => ?_
    · refine Ref.bind (.refl _) fun b _ h => ?_; subst h
      exact vset_ref hL hm _ _
    · obtain ⟨rfl, h⟩ := h
      exact .pure ⟨rfl, h⟩
  · obtain ⟨rfl, h⟩ := h
    obtain ⟨s, m, ptr⟩ := x
    exact .pure ⟨rfl, h⟩

theorem duplexRow1_ref (hL : L < 2 ^ 32) (p : Profile) (C : U64) (l : I64) (s : State) (m : Matrix) (hm : m.size = L) :
    Ref (Model.Lyra2.duplexRow1 p C l s m) (duplexRow1 32 p C l s m) (fun a b => a = b ∧ a.2.size = L) := by
  unfold Model.Lyra2.duplexRow1 duplexRow1
  refine forLoop_ref (fun x : State × Matrix => x.2.size = L) (fun i x hx => ?_) _ _ _ hm
  obtain ⟨s, m⟩ := x
  dsimp only at hx ⊢
  refine Ref.bind (unroll12_ref (fun _ => True) (fun w s _ => ?_) s trivial) fun s' _ h => ?_
  · refine Ref.bind (idxRow0_ref _ _ _) fun a _ h => ?_; subst h
    refine Ref.bind (vget_ref (by omega) _) fun x _ h => ?_; subst h
    exact .pure ⟨rfl, trivial⟩
  obtain ⟨rfl, -⟩ := h
  refine Ref.bind (unroll12_ref (fun m : Matrix => m.size = L) (fun w m hm => ?_) m hx) fun m' _ h => ?_
  · refine Ref.bind (idxRow0_ref _ _ _) fun a _ h => ?_; subst h
    refine Ref.bind (vget_ref (by omega) _) fun x _ h => ?_; subst h
    refine Ref.bind (idxRow1Rev_ref _ _ _ _ _) fun a _ h => ?_; subst h
    exact vset_ref hL hm _ _
  obtain ⟨rfl, h⟩ := h
  exact .pure ⟨rfl, h⟩

theorem absorbSum_ref (p : Profile) (l : I64) (i : U64) (a b : I64) (m : Matrix) (s : State) (hm : m.size < 2 ^ 32) :
    Ref (Model.Lyra2.absorbSum p l i a b m s) (absorbSum 32 p l i a b m s) (fun a b => a = b ∧ True) := by
  unfold Model.Lyra2.absorbSum absorbSum
  refine unroll12_ref (fun _ => True) (fun w s _ => ?_) s trivial
  refine Ref.bind (idx_ref _ _ _ _ _) fun a _ h => ?_; subst h
  refine Ref.bind (vget_ref hm _) fun x _ h => ?_; subst h
  refine Ref.bind (idx_ref _ _ _ _ _) fun a _ h => ?_; subst h
  refine Ref.bind (vget_ref hm _) fun y _ h => ?_; subst h
  exact .pure ⟨rfl, trivial⟩

theorem xorRotW_ref (hL : L < 2 ^ 32) (p : Profile) (l : I64) (i : U64) (a : I64) (s : State) (m : Matrix) (hm : m.size = L) :
    Ref (Model.Lyra2.xorRotW p l i a s m) (xorRotW 32 p l i a s m) (fun a b => a = b ∧ a.size = L) := by
  unfold Model.Lyra2.xorRotW xorRotW
  refine unroll12_ref (fun m : Matrix => m.size = L) (fun w m hm => ?_) m hm
  refine Ref.bind (idx_ref _ _ _ _ _) fun a _ h => ?_; subst h
  refine Ref.bind (vget_ref (by omega) _) fun x _ h => ?_; subst h
  exact vset_ref hL hm _ _

theorem duplexRowSetup_ref (hL : L < 2 ^ 32) (p : Profile) (C : U64) (l prev rowa row : I64) (s : State) (m : Matrix)
    (hm : m.size = L) :
    Ref (Model.Lyra2.duplexRowSetup p C l prev rowa row s m) (duplexRowSetup 32 p C l prev rowa row s m)
      (fun a b => a = b ∧ a.2.size = L) := by
  unfold Model.Lyra2.duplexRowSetup duplexRowSetup
  refine forLoop_ref (fun x : State × Matrix => x.2.size = L) (fun i x hx => ?_) _ _ _ hm
  obtain ⟨s, m⟩ := x
  dsimp only at hx ⊢
  refine Ref.bind (absorbSum_ref _ _ _ _ _ _ _ (by omega)) fun s' _ h => ?_
  obtain ⟨rfl, -⟩ := h
  refine Ref.bind (unroll12_ref (fun m : Matrix => m.size = L) (fun w m hm => ?_) m hx) fun m' _ h => ?_
  · refine Ref.bind (idx_ref _ _ _ _ _) fun a _ h => ?_; subst h
    refine Ref.bind (vget_ref (by omega) _) fun x _ h => ?_; subst h
    refine Ref.bind (idxRev_ref _ _ _ _ _ _) fun a _ h => ?_; subst h
    exact vset_ref hL hm _ _
  obtain ⟨rfl, h⟩ := h
  refine Ref.bind (xorRotW_ref hL _ _ _ _ _ _ h) fun m'' _ h => ?_
  obtain ⟨rfl, h⟩ := h
  exact .pure ⟨rfl, h⟩

theorem setupRows_ref (hL : L < 2 ^ 32) (p : Profile) (R C : U64) (l : I64) (s : State) (m : Matrix) (hm : m.size = L) :
    Ref (Model.Lyra2.setupRows p R C l s m) (setupRows 32 p R C l s m) (fun a b => a = b ∧ a.2.1.size = L) := by
  unfold Model.Lyra2.setupRows setupRows
  refine forLoop_ref (fun x : State × Matrix × SetupVars => x.2.1.size = L) (fun i x hx => ?_) _ _ _ hm
  obtain ⟨s, m, v⟩ := x
  dsimp only at hx ⊢
  refine Ref.bind (duplexRowSetup_ref hL _ _ _ _ _ _ _ _ hx) fun x _ h => ?_
  obtain ⟨rfl, h⟩ := h
  refine Ref.bind (.refl _) fun v' _ h' => ?_; subst h'
  exact .pure ⟨rfl, h⟩

theorem duplexRow_ref (hL : L < 2 ^ 32) (p : Profile) (C : U64) (l prev rowa row : I64) (s : State) (m : Matrix)
    (hm : m.size = L) :
    Ref (Model.Lyra2.duplexRow p C l prev rowa row s m) (duplexRow 32 p C l prev rowa row s m)
      (fun a b => a = b ∧ a.2.size = L) := by
  unfold Model.Lyra2.duplexRow duplexRow
  refine forLoop_ref (fun x : State × Matrix => x.2.size = L) (fun i x hx => ?_) _ _ _ hm
  obtain ⟨s, m⟩ := x
  dsimp only at hx ⊢
  refine Ref.bind (absorbSum_ref _ _ _ _ _ _ _ (by omega)) fun s' _ h => ?_
  obtain ⟨rfl, -⟩ := h
  refine Ref.bind (unroll12_ref (fun m : Matrix => m.size = L) (fun w m hm => ?_) m hx) fun m' _ h => ?_
  · refine Ref.bind (idx_ref _ _ _ _ _) fun a _ h => ?_; subst h
    refine Ref.bind (vget_ref (by omega) _) fun x _ h => ?_; subst h
    exact vset_ref hL hm _ _
  obtain ⟨rfl, h⟩ := h
  refine Ref.bind (xorRotW_ref hL _ _ _ _ _ _ h) fun m'' _ h => ?_
  obtain ⟨rfl, h⟩ := h
  exact .pure ⟨rfl, h⟩

/-! ## Wandering phase and wrap-up -/

theorem wanderBody_ref (hL : L < 2 ^ 32) (p : Profile) (R C : U64) (l step : I64) (v : WanderVars) (hm : v.m.size = L) :
    Ref (Model.Lyra2.wanderBody p R C l step v) (wanderBody 32 p R C l step v) (fun a b => a = b ∧
      Lyra2.BodyPost WanderVars.row step (R - 1#64) (fun v => v.m.size = L) v a) := by
  unfold Model.Lyra2.wanderBody wanderBody
  refine Ref.bind (.refl _) fun a _ h => ?_; subst h
  refine Ref.bind (duplexRow_ref hL _ _ _ _ _ _ _ _ hm) fun x _ h => ?_
  obtain ⟨rfl, hx⟩ := h
  refine Ref.bind (.of_post (iadd_post _ _ _)) fun b _ h => ?_
  obtain ⟨rfl, rfl⟩ := h
  refine Ref.bind (.of_post (isub_post _ _ _)) fun c _ h => ?_
  obtain ⟨rfl, rfl⟩ := h
  dsimp only
  split
  · rename_i h; exact .pure ⟨rfl, h, hx⟩
  · rename_i h; exact .pure ⟨rfl, rfl, h, hx⟩

theorem wander_ref (hL : L < 2 ^ 32) (p : Profile) (T R C : U64) (l : I64) (v : WanderVars) (hv : v.row = 0) (hm : v.m.size = L) :
    Ref (Model.Lyra2.wander p T R C l v) (wander 32 p T R C l v) (fun a b => a = b ∧ a.row = 0 ∧ a.m.size = L) := by
  unfold Model.Lyra2.wander wander
  refine forLoop_ref (fun v : WanderVars => v.row = 0 ∧ v.m.size = L) (fun τ v hv => ?_) _ _ _ ⟨hv, hm⟩
  refine Ref.bind (.refl _) fun step _ h => ?_; subst h
  exact pass_ref WanderVars.row step (R - 1#64) (fun v => v.m.size = L) (fun v h => wanderBody_ref hL p R C l step v h) v hv.1 hv.2

theorem mask_usz (x : BitVec 64) : usz 32 x &&& 0xf = x.toNat &&& 0xf := by
  unfold usz
  rw [show (0xf : Nat) = 2 ^ 4 - 1 from rfl, Nat.and_two_pow_sub_one_eq_mod, Nat.and_two_pow_sub_one_eq_mod]
  omega

theorem modWanderBody_ref (hL : L < 2 ^ 32) (p : Profile) (R C : U64) (l step : I64) (v : Model.Lyra2mod.WanderVars)
    (hm : v.m.size = L) :
    Ref (Model.Lyra2mod.wanderBody p R C l step v) (modWanderBody 32 p R C l step v) (fun a b => a = b ∧
      Lyra2.BodyPost Model.Lyra2mod.WanderVars.row step (R - 1#64) (fun v => v.m.size = L) v a) := by
  unfold Model.Lyra2mod.wanderBody modWanderBody
  rw [mask_usz]
  refine Ref.bind (.refl _) fun i _ h => ?_; subst h
  rw [mask_usz]
  refine Ref.bind (.refl _) fun j _ h => ?_; subst h
  refine Ref.bind (.refl _) fun a _ h => ?_; subst h
  rw [Lyra2.mod_duplexRow]
  refine Ref.bind (duplexRow_ref hL _ _ _ _ _ _ _ _ hm) fun x _ h => ?_
  obtain ⟨rfl, hx⟩ := h
  refine Ref.bind (.of_post (iadd_post _ _ _)) fun b _ h => ?_
  obtain ⟨rfl, rfl⟩ := h
  refine Ref.bind (.of_post (isub_post _ _ _)) fun c _ h => ?_
  obtain ⟨rfl, rfl⟩ := h
  dsimp only
  split
  · rename_i h; exact .pure ⟨rfl, h, hx⟩
  · rename_i h; exact .pure ⟨rfl, rfl, h, hx⟩

theorem modWander_ref (hL : L < 2 ^ 32) (p : Profile) (T R C : U64) (l : I64) (v : Model.Lyra2mod.WanderVars) (hv : v.row = 0)
    (hm : v.m.size = L) :
    Ref (Model.Lyra2mod.wander p T R C l v) (modWander 32 p T R C l v) (fun a b => a = b ∧ a.row = 0 ∧ a.m.size = L) := by
  unfold Model.Lyra2mod.wander modWander
  rw [Lyra2.mod_wanderStep]
  refine forLoop_ref (fun v : Model.Lyra2mod.WanderVars => v.row = 0 ∧ v.m.size = L) (fun τ v hv => ?_) _ _ _ ⟨hv, hm⟩
  refine Ref.bind (.refl _) fun step _ h => ?_; subst h
  exact pass_ref Model.Lyra2mod.WanderVars.row step (R - 1#64) (fun v => v.m.size = L)
    (fun v h => modWanderBody_ref hL p R C l step v h) v hv.1 hv.2

/-! ## Input -/

theorem writeInput_ref (hL : L < 2 ^ 32) (p : Profile) (k T R C : U64) (pwd salt : List U8) (n : I64) (m : Matrix) (hm : m.size = L) :
    Ref (Model.Lyra2.writeInput p k pwd salt T R C n m) (writeInput 32 p k pwd salt T R C n m) (fun a b => a = b ∧ a.size = L) := by
  unfold Model.Lyra2.writeInput writeInput
  refine Ref.bind (.of_post (Lyra2.writeWords_post _ _ _)) fun m1 _ h => ?_; obtain ⟨rfl, h1⟩ := h
  refine Ref.bind (.of_post (Lyra2.writeWords_post _ _ _)) fun m2 _ h => ?_; obtain ⟨rfl, h2⟩ := h
  refine Ref.bind (.of_post (vset_post _ _ _)) fun m3 _ h => ?_; obtain ⟨rfl, h3⟩ := h
  refine Ref.bind (.of_post (vset_post _ _ _)) fun m4 _ h => ?_; obtain ⟨rfl, h4⟩ := h
  refine Ref.bind (.of_post (vset_post _ _ _)) fun m5 _ h => ?_; obtain ⟨rfl, h5⟩ := h
  refine Ref.bind (.of_post (vset_post _ _ _)) fun m6 _ h => ?_; obtain ⟨rfl, h6⟩ := h
  refine Ref.bind (.of_post (vset_post _ _ _)) fun m7 _ h => ?_; obtain ⟨rfl, h7⟩ := h
  refine Ref.bind (.of_post (vset_post _ _ _)) fun m8 _ h => ?_; obtain ⟨rfl, h8⟩ := h
  refine Ref.bind (.of_post (vset_post _ _ _)) fun m9 _ h => ?_; obtain ⟨rfl, h9⟩ := h
  refine Ref.bind (.refl _) fun a _ h => ?_; subst h
  refine Ref.bind (.refl _) fun b _ h => ?_; subst h
  have e : m9.size = L := by omega
  refine Ref.bind (vget_ref (by omega) _) fun x _ h => ?_; subst h
  exact vset_ref hL e _ _

theorem nBlocksInput_32 (p : Profile) {a b : Nat} (h : a + b + 48 < 2 ^ 32) : nBlocksInput 32 p a b = Model.Lyra2.nBlocksInput p a b := by
  unfold nBlocksInput Model.Lyra2.nBlocksInput Model.Target.usizeAdd Rust.usizeAdd
  rw [if_pos (by omega), if_pos (by omega), pure_bind, pure_bind, if_pos (by omega), if_pos (by omega)]

theorem alloc_32 (p : Profile) {R C : Nat} (hR : 0 < R) (hM : 96 * (R * C) < 2 ^ 31) (hC : 0 < C) :
    allocMatrix 32 p (BitVec.ofNat 64 R) (BitVec.ofNat 64 C) =
      pure (BitVec.ofNat 64 (12 * C), Array.replicate (12 * (R * C)) 0) := by
  have hC' : C ≤ R * C := Nat.le_mul_of_pos_left C hR
  have hR' : R ≤ R * C := Nat.le_mul_of_pos_right R hC
  have e : R * (12 * C) = 12 * (R * C) := by ring
  unfold allocMatrix Model.Target.vecOf usz
  rw [show Model.Lyra2.BLOCKLENINT64 = BitVec.ofNat 64 12 from rfl, imul_ofNat p (by omega) (by omega) (by omega), pure_bind,
    imul_ofNat p (by omega) (by omega) (by omega), pure_bind, Lyra2.toNat_ofNat64 (by omega), e, Nat.mod_eq_of_lt (by omega),
    if_pos (by show _ ≤ 2 ^ 31 - 1; omega), pure_bind]

/-- Everything before the wandering phase. -/
def front (u : Nat) (p : Profile) (k : U64) (pwd salt : List U8) (time_cost n_rows n_cols : U64) :
    Res (I64 × State × Matrix × SetupVars) := do
  let (row_len_int64, m) ← allocMatrix u p n_rows n_cols
  let n_blocks_input ← nBlocksInput u p pwd.length salt.length
  let m ← writeInput u p k pwd salt time_cost n_rows n_cols n_blocks_input m
  let state ← Model.Lyra2.absorbInput n_blocks_input m Model.Lyra2.init_state
  let (state, m) ← squeezeRow0 u p n_cols state m
  let (state, m) ← duplexRow1 u p n_cols row_len_int64 state m
  let (state, m, v) ← setupRows u p n_rows n_cols row_len_int64 state m
  pure (row_len_int64, state, m, v)

theorem lyra2_front (u : Nat) (p : Profile) (k : U64) (pwd salt : List U8) (T R C : U64) :
    lyra2 u p k pwd salt T R C = (do
      if T.toNat < 1 then throw .explicit
      if R.toNat < 3 then throw .explicit
      let x ← front u p k pwd salt T R C
      let w ← wander u p T R C x.1 { state := x.2.1, m := x.2.2.1, prev := x.2.2.2.prev, row := 0, rowa := x.2.2.2.rowa }
      wrapUp u p k x.1 w) := by
  unfold lyra2 front
  simp only [bind_assoc, pure_bind]

theorem lyra2mod_front (u : Nat) (p : Profile) (k : U64) (pwd salt : List U8) (T R C : U64) :
    lyra2mod u p k pwd salt T R C = (do
      if T.toNat < 1 then throw .explicit
      if R.toNat < 3 then throw .explicit
      let x ← front u p k pwd salt T R C
      let w ← modWander u p T R C x.1
        { state := x.2.1, m := x.2.2.1, prev := x.2.2.2.prev, row := 0, rowa := x.2.2.2.rowa, index := 0 }
      wrapUp u p k x.1 { state := w.state, m := w.m, prev := w.prev, row := w.row, rowa := w.rowa }) := by
  unfold lyra2mod front
  simp only [bind_assoc, pure_bind]

theorem front_ref (p : Profile) (k T : U64) {R C : Nat} (pwd salt : List U8) (hR : 3 ≤ R) (hM : 96 * (R * C) < 2 ^ 31)
    (hI : 8 * Spec.Lyra2.nBlocks (pwd.length + salt.length) ≤ 12 * (R * C)) :
    Ref (Lyra2.front p k pwd salt T (BitVec.ofNat 64 R) (BitVec.ofNat 64 C))
      (front 32 p k pwd salt T (BitVec.ofNat 64 R) (BitVec.ofNat 64 C)) (fun a b => a = b ∧ a.2.2.1.size = 12 * (R * C)) := by
  unfold Lyra2.front front
  have hC : 0 < C := by
    by_contra hc
    have : C = 0 := by omega
    subst this
    unfold Spec.Lyra2.nBlocks at hI
    omega
  have hL : 12 * (R * C) < 2 ^ 32 := by omega
  rw [alloc_32 p (by omega) hM hC, Lyra2.allocMatrix_ok p (by omega) (by omega) hC, pure_bind, pure_bind,
    nBlocksInput_32 p (by unfold Spec.Lyra2.nBlocks at hI; omega)]
  refine Ref.bind (.refl _) fun n _ h => ?_; subst h
  refine Ref.bind (writeInput_ref hL _ _ _ _ _ _ _ _ _ (by simp)) fun m _ h => ?_
  obtain ⟨rfl, hm⟩ := h
  refine Ref.bind (.refl _) fun s _ h => ?_; subst h
  refine Ref.bind (squeezeRow0_ref hL _ _ _ _ hm) fun x _ h => ?_
  obtain ⟨rfl, hm⟩ := h
  refine Ref.bind (duplexRow1_ref hL _ _ _ _ _ hm) fun x _ h => ?_
  obtain ⟨rfl, hm⟩ := h
  refine Ref.bind (setupRows_ref hL _ _ _ _ _ _ hm) fun x _ h => ?_
  obtain ⟨rfl, hm⟩ := h
  exact .pure ⟨rfl, hm⟩

end Proofs.Target

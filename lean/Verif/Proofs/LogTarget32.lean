import Verif.Proofs.LogTarget64
import Verif.Proofs.Target32Main

/-! Whatever a run with 64-bit `usize` returns and logs, the run with 32-bit `usize` returns and logs too, provided the matrix can be
allocated. -/

namespace Proofs.LogTarget
open Rust hiding forLoop loop unroll12
open Rust.Res Model.LogTarget Proofs.Target
open Model.Log (Logged LoggedOf quiet emit)
open Model.Lyra2 (State Matrix SetupVars WanderVars)
open Model.Target (usz)

variable {ε α β α' β' σ : Type}

/-- If the first computation returns, so does the second, with related values and the same log. -/
def RefL (A : LoggedOf ε α) (B : LoggedOf ε β) (rel : α → β → Prop) : Prop :=
  ∀ log, Ref (A log) (B log) (fun a b => rel a.1 b.1 ∧ a.2 = b.2)

theorem RefL.pure {a : α} {b : β} {rel : α → β → Prop} (h : rel a b) : RefL (pure a : LoggedOf ε α) (pure b) rel :=
  fun _ => Ref.pure ⟨h, rfl⟩

theorem RefL.bind {A : LoggedOf ε α} {B : LoggedOf ε β} {f : α → LoggedOf ε α'} {g : β → LoggedOf ε β'} {rel : α → β → Prop}
    {rel' : α' → β' → Prop} (h : RefL A B rel) (hf : ∀ a b, rel a b → RefL (f a) (g b) rel') : RefL (A >>= f) (B >>= g) rel' := by
  intro log
  refine Ref.bind (h log) fun x y hxy => ?_
  obtain ⟨a, l⟩ := x
  obtain ⟨b, l'⟩ := y
  obtain ⟨h1, h2⟩ := hxy
  dsimp only at h1 h2 ⊢
  subst h2
  exact hf a b h1 l

theorem RefL.quiet {m : Res α} {m' : Res β} {rel : α → β → Prop} (h : Ref m m' rel) :
    RefL (Model.Log.quiet (ε := ε) m) (Model.Log.quiet m') rel := by
  intro log
  unfold Model.Log.quiet
  exact Ref.bind h fun _ _ hab => Ref.pure ⟨hab, rfl⟩

theorem RefL.refl (A : LoggedOf ε α) : RefL A A (fun a b => a = b) := fun _ x hx => ⟨x, hx, rfl, rfl⟩

theorem RefL.mono {A : LoggedOf ε α} {B : LoggedOf ε β} {rel rel' : α → β → Prop} (h : RefL A B rel) (hr : ∀ a b, rel a b → rel' a b) :
    RefL A B rel' := fun log => (h log).mono fun _ _ hab => ⟨hr _ _ hab.1, hab.2⟩

/-- The same computation, with a property of its value that it has without the log. -/
theorem RefL.of_erases {A : LoggedOf ε α} {m : Res α} {Q : α → Prop} (h : Log.Erases A m) (hm : m.Post Q) :
    RefL A A (fun a b => a = b ∧ Q a) := by
  intro log x hx
  refine ⟨x, hx, ⟨rfl, ?_⟩, rfl⟩
  have := h log
  rw [hx, pure_bind] at this
  exact hm.of_eq_pure this.symm

theorem RefL.forLoop {body body' : Nat → σ → LoggedOf ε σ} (Q : σ → Prop)
    (step : ∀ i s, Q s → RefL (body i s) (body' i s) (fun a b => a = b ∧ Q a)) (i n : Nat) (s : σ) (h : Q s) :
    RefL (Model.Log.forLoop i n body s) (Model.Log.forLoop i n body' s) (fun a b => a = b ∧ Q a) := by
  intro log
  unfold Model.Log.forLoop
  refine (forLoop_ref (fun x : σ × List ε => Q x.1) (fun i x hx => ?_) i n (s, log) h).mono fun a b hab => ⟨⟨by rw [hab.1], hab.2⟩, by rw [hab.1]⟩
  exact (step i x.1 hx x.2).mono fun a b hab => ⟨Prod.ext hab.1.1 hab.2, hab.1.2⟩

theorem RefL.unroll12 {stmt stmt' : Fin 12 → σ → LoggedOf ε σ} (Q : σ → Prop)
    (step : ∀ w s, Q s → RefL (stmt w s) (stmt' w s) (fun a b => a = b ∧ Q a)) (s : σ) (h : Q s) :
    RefL (Model.Log.unroll12 stmt s) (Model.Log.unroll12 stmt' s) (fun a b => a = b ∧ Q a) := by
  intro log
  unfold Model.Log.unroll12
  refine (unroll12_ref (fun x : σ × List ε => Q x.1) (fun w x hx => ?_) (s, log) h).mono fun a b hab => ⟨⟨by rw [hab.1], hab.2⟩, by rw [hab.1]⟩
  exact (step w x.1 hx x.2).mono fun a b hab => ⟨Prod.ext hab.1.1 hab.2, hab.1.2⟩

/-- A pass: as `Proofs.Target.pass_ref`. -/
theorem RefL.pass {body body' : σ → LoggedOf ε (σ ⊕ σ)} (row : σ → BitVec 64) (step mask : BitVec 64) (Q : σ → Prop)
    (h : ∀ v, Q v → RefL (body v) (body' v) (fun a b => a = b ∧ Lyra2.BodyPost row step mask Q v a)) (v : σ) (hv : row v = 0)
    (hQ : Q v) : RefL (Model.Log.loop body v) (Model.Log.loop body' v) (fun a b => a = b ∧ row a = 0 ∧ Q a) := by
  intro log
  unfold Model.Log.loop
  refine (pass_ref (body := Model.Log.roundOf body) (body' := Model.Log.roundOf body') (fun x : σ × List ε => row x.1) step mask
    (fun x => Q x.1) (fun x hx => ?_) (v, log) hv hQ).mono fun a b hab => ⟨⟨by rw [hab.1], hab.2⟩, by rw [hab.1]⟩
  unfold Model.Log.roundOf
  refine Ref.bind (h x.1 hx x.2) fun a b hab => ?_
  obtain ⟨⟨h1, h2⟩, h3⟩ := hab
  obtain ⟨a, l⟩ := a
  obtain ⟨b, l'⟩ := b
  dsimp only at h1 h2 h3 ⊢
  subst h1 h3
  match a, h2 with
  | .inl s, h2 => exact Ref.pure ⟨rfl, h2⟩
  | .inr s, h2 => exact Ref.pure ⟨rfl, h2⟩

/-! ## Accesses to the matrix -/

theorem RefL.emit {e : Event} {f : Unit → Logged α} {g : Unit → Logged β} {rel : α → β → Prop} (h : RefL (f ()) (g ()) rel) :
    RefL (Model.Log.emit e >>= f) (Model.Log.emit e >>= g) rel := fun log => h (log ++ [e])

theorem RefL.get {m : Matrix} (hm : m.size < 2 ^ 32) (n : Nat) :
    RefL (Model.Log.get m n) (Model.Log.get m (n % 2 ^ 32)) (fun a b => a = b) := by
  intro log x hx
  have h : vget m n = Pure.pure x.1 := by
    have := Log.Erases.get m n log
    rw [hx, pure_bind] at this
    exact this.symm
  have := (vget_post m n).of_eq_pure h
  rw [Nat.mod_eq_of_lt (by omega)]
  exact ⟨x, hx, rfl, rfl⟩

theorem RefL.put {m : Matrix} {L : Nat} (hL : L < 2 ^ 32) (hm : m.size = L) (n : Nat) (v : U64) :
    RefL (Model.Log.put m n v) (Model.Log.put m (n % 2 ^ 32) v) (fun a b => a = b ∧ a.size = L) := by
  intro log x hx
  have h : vset m n v = Pure.pure x.1 := by
    have := Log.Erases.put m n v log
    rw [hx, pure_bind] at this
    exact this.symm
  have := (vset_post m n v).of_eq_pure h
  rw [Nat.mod_eq_of_lt (by omega)]
  exact ⟨x, hx, ⟨rfl, by omega⟩, rfl⟩

theorem RefL.tail {m : Matrix} (hm : m.size < 2 ^ 32) (n : Nat) :
    RefL (Model.Log.tail m n) (Model.Log.tail m (n % 2 ^ 32)) (fun a b => a = b) := by
  intro log x hx
  have h : splitRight m n = Pure.pure x.1 := by
    have := Log.Erases.tail m n log
    rw [hx, pure_bind] at this
    exact this.symm
  have : n ≤ m.size := by
    unfold splitRight at h
    split at h
    · assumption
    · cases h
  rw [Nat.mod_eq_of_lt (by omega)]
  exact ⟨x, hx, rfl, rfl⟩

/-- A write at a position that does not depend on the width of `usize`. -/
theorem RefL.put_same {m : Matrix} {L : Nat} (hm : m.size = L) (n : Nat) (v : U64) :
    RefL (Model.Log.put m n v) (Model.Log.put m n v) (fun a b => a = b ∧ a.size = L) :=
  (RefL.of_erases (Log.Erases.put m n v) (vset_post m n v)).mono fun a b h => ⟨h.1, by omega⟩

/-! ## Rows -/

variable {L : Nat}

theorem squeezeRow0_ref (hL : L < 2 ^ 32) (p : Profile) (C : U64) (s : State) (m : Matrix) (hm : m.size = L) :
    RefL (Model.Log.squeezeRow0 p C s m) (squeezeRow0 32 p C s m) (fun a b => a = b ∧ a.2.size = L) := by
  unfold Model.Log.squeezeRow0 squeezeRow0
  refine RefL.bind (.refl _) fun a _ h => ?_; subst h
  refine RefL.bind (.refl _) fun b _ h => ?_; subst h
  refine RefL.bind (RefL.forLoop (fun x : State × Matrix × I64 => x.2.1.size = L) (fun i x hx => ?_) _ _ _ hm) fun x y h => ?_
  · obtain ⟨s, m, ptr⟩ := x
    dsimp only at hx ⊢
    refine RefL.bind (RefL.unroll12 (fun m : Matrix => m.size = L) (fun w m hm => ?_) m hx) fun x y h => ?_
    · refine RefL.bind (.refl _) fun b _ h => ?_; subst h
      exact RefL.put hL hm _ _
    · obtain ⟨rfl, h⟩ := h
      refine RefL.bind (.refl _) fun s' _ h' => ?_; subst h'
      exact .pure ⟨rfl, h⟩
  · obtain ⟨rfl, h⟩ := h
    obtain ⟨s, m, ptr⟩ := x
    exact .pure ⟨rfl, h⟩

theorem duplexRow1_ref (hL : L < 2 ^ 32) (p : Profile) (C : U64) (l : I64) (s : State) (m : Matrix) (hm : m.size = L) :
    RefL (Model.Log.duplexRow1 p C l s m) (duplexRow1 32 p C l s m) (fun a b => a = b ∧ a.2.size = L) := by
  unfold Model.Log.duplexRow1 duplexRow1
  refine RefL.forLoop (fun x : State × Matrix => x.2.size = L) (fun i x hx => ?_) _ _ _ hm
  obtain ⟨s, m⟩ := x
  dsimp only at hx ⊢
  refine RefL.bind (RefL.unroll12 (fun _ => True) (fun w s _ => ?_) s trivial) fun s' _ h => ?_
  · refine RefL.bind (.quiet (idxRow0_ref _ _ _)) fun a _ h => ?_; subst h
    refine RefL.bind (.get (by omega) _) fun x _ h => ?_; subst h
    exact .pure ⟨rfl, trivial⟩
  obtain ⟨rfl, -⟩ := h
  refine RefL.bind (.refl _) fun s'' _ h' => ?_; subst h'
  refine RefL.bind (RefL.unroll12 (fun m : Matrix => m.size = L) (fun w m hm => ?_) m hx) fun m' _ h => ?_
  · refine RefL.bind (.quiet (idxRow0_ref _ _ _)) fun a _ h => ?_; subst h
    refine RefL.bind (.get (by omega) _) fun x _ h => ?_; subst h
    refine RefL.bind (.quiet (idxRow1Rev_ref _ _ _ _ _)) fun a _ h => ?_; subst h
    exact RefL.put hL hm _ _
  obtain ⟨rfl, h⟩ := h
  exact .pure ⟨rfl, h⟩

theorem absorbSum_ref (p : Profile) (l : I64) (i : U64) (a b : I64) (m : Matrix) (s : State) (hm : m.size < 2 ^ 32) :
    RefL (Model.Log.absorbSum p l i a b m s) (absorbSum 32 p l i a b m s) (fun a b => a = b ∧ True) := by
  unfold Model.Log.absorbSum absorbSum
  refine RefL.unroll12 (fun _ => True) (fun w s _ => ?_) s trivial
  refine RefL.bind (.quiet (idx_ref _ _ _ _ _)) fun a _ h => ?_; subst h
  refine RefL.bind (.get hm _) fun x _ h => ?_; subst h
  refine RefL.bind (.quiet (idx_ref _ _ _ _ _)) fun a _ h => ?_; subst h
  refine RefL.bind (.get hm _) fun y _ h => ?_; subst h
  exact .pure ⟨rfl, trivial⟩

theorem xorRotW_ref (hL : L < 2 ^ 32) (p : Profile) (l : I64) (i : U64) (a : I64) (s : State) (m : Matrix) (hm : m.size = L) :
    RefL (Model.Log.xorRotW p l i a s m) (xorRotW 32 p l i a s m) (fun a b => a = b ∧ a.size = L) := by
  unfold Model.Log.xorRotW xorRotW
  refine RefL.unroll12 (fun m : Matrix => m.size = L) (fun w m hm => ?_) m hm
  refine RefL.bind (.quiet (idx_ref _ _ _ _ _)) fun a _ h => ?_; subst h
  refine RefL.bind (.get (by omega) _) fun x _ h => ?_; subst h
  exact RefL.put hL hm _ _

theorem duplexRowSetup_ref (hL : L < 2 ^ 32) (p : Profile) (C : U64) (l prev rowa row : I64) (s : State) (m : Matrix)
    (hm : m.size = L) :
    RefL (Model.Log.duplexRowSetup p C l prev rowa row s m) (duplexRowSetup 32 p C l prev rowa row s m)
      (fun a b => a = b ∧ a.2.size = L) := by
  unfold Model.Log.duplexRowSetup duplexRowSetup
  refine RefL.forLoop (fun x : State × Matrix => x.2.size = L) (fun i x hx => ?_) _ _ _ hm
  obtain ⟨s, m⟩ := x
  dsimp only at hx ⊢
  refine RefL.bind (absorbSum_ref _ _ _ _ _ _ _ (by omega)) fun s' _ h => ?_
  obtain ⟨rfl, -⟩ := h
  refine RefL.bind (.refl _) fun s'' _ h' => ?_; subst h'
  refine RefL.bind (RefL.unroll12 (fun m : Matrix => m.size = L) (fun w m hm => ?_) m hx) fun m' _ h => ?_
  · refine RefL.bind (.quiet (idx_ref _ _ _ _ _)) fun a _ h => ?_; subst h
    refine RefL.bind (.get (by omega) _) fun x _ h => ?_; subst h
    refine RefL.bind (.quiet (idxRev_ref _ _ _ _ _ _)) fun a _ h => ?_; subst h
    exact RefL.put hL hm _ _
  obtain ⟨rfl, h⟩ := h
  refine RefL.bind (xorRotW_ref hL _ _ _ _ _ _ h) fun m'' _ h => ?_
  obtain ⟨rfl, h⟩ := h
  exact .pure ⟨rfl, h⟩

theorem setupRows_ref (hL : L < 2 ^ 32) (p : Profile) (R C : U64) (l : I64) (s : State) (m : Matrix) (hm : m.size = L) :
    RefL (Model.Log.setupRows p R C l s m) (setupRows 32 p R C l s m) (fun a b => a = b ∧ a.2.1.size = L) := by
  unfold Model.Log.setupRows setupRows
  refine RefL.forLoop (fun x : State × Matrix × SetupVars => x.2.1.size = L) (fun i x hx => ?_) _ _ _ hm
  obtain ⟨s, m, v⟩ := x
  dsimp only at hx ⊢
  refine RefL.bind (duplexRowSetup_ref hL _ _ _ _ _ _ _ _ hx) fun x _ h => ?_
  obtain ⟨rfl, h⟩ := h
  refine RefL.bind (.refl _) fun v' _ h' => ?_; subst h'
  exact .pure ⟨rfl, h⟩

theorem duplexRow_ref (hL : L < 2 ^ 32) (p : Profile) (C : U64) (l prev rowa row : I64) (s : State) (m : Matrix)
    (hm : m.size = L) :
    RefL (Model.Log.duplexRow p C l prev rowa row s m) (duplexRow 32 p C l prev rowa row s m)
      (fun a b => a = b ∧ a.2.size = L) := by
  unfold Model.Log.duplexRow duplexRow
  refine RefL.forLoop (fun x : State × Matrix => x.2.size = L) (fun i x hx => ?_) _ _ _ hm
  obtain ⟨s, m⟩ := x
  dsimp only at hx ⊢
  refine RefL.bind (absorbSum_ref _ _ _ _ _ _ _ (by omega)) fun s' _ h => ?_
  obtain ⟨rfl, -⟩ := h
  refine RefL.bind (.refl _) fun s'' _ h' => ?_; subst h'
  refine RefL.bind (RefL.unroll12 (fun m : Matrix => m.size = L) (fun w m hm => ?_) m hx) fun m' _ h => ?_
  · refine RefL.bind (.quiet (idx_ref _ _ _ _ _)) fun a _ h => ?_; subst h
    refine RefL.bind (.get (by omega) _) fun x _ h => ?_; subst h
    exact RefL.put hL hm _ _
  obtain ⟨rfl, h⟩ := h
  refine RefL.bind (xorRotW_ref hL _ _ _ _ _ _ h) fun m'' _ h => ?_
  obtain ⟨rfl, h⟩ := h
  exact .pure ⟨rfl, h⟩

/-! ## Wandering phase and wrap-up -/

theorem wanderBody_ref (hL : L < 2 ^ 32) (p : Profile) (R C : U64) (l step : I64) (v : WanderVars) (hm : v.m.size = L) :
    RefL (Model.Log.wanderBody p R C l step v) (wanderBody 32 p R C l step v) (fun a b => a = b ∧
      Lyra2.BodyPost WanderVars.row step (R - 1#64) (fun v => v.m.size = L) v a) := by
  unfold Model.Log.wanderBody wanderBody
  refine RefL.bind (.refl _) fun a _ h => ?_; subst h
  refine RefL.bind (duplexRow_ref hL _ _ _ _ _ _ _ _ hm) fun x _ h => ?_
  obtain ⟨rfl, hx⟩ := h
  refine RefL.bind (.quiet (.of_post (iadd_post _ _ _))) fun b _ h => ?_
  obtain ⟨rfl, rfl⟩ := h
  refine RefL.bind (.quiet (.of_post (isub_post _ _ _))) fun c _ h => ?_
  obtain ⟨rfl, rfl⟩ := h
  dsimp only
  split
  · rename_i h; exact .pure ⟨rfl, h, hx⟩
  · rename_i h; exact .pure ⟨rfl, rfl, h, hx⟩

theorem wander_ref (hL : L < 2 ^ 32) (p : Profile) (T R C : U64) (l : I64) (v : WanderVars) (hv : v.row = 0) (hm : v.m.size = L) :
    RefL (Model.Log.wander p T R C l v) (wander 32 p T R C l v) (fun a b => a = b ∧ a.row = 0 ∧ a.m.size = L) := by
  unfold Model.Log.wander wander
  refine RefL.forLoop (fun v : WanderVars => v.row = 0 ∧ v.m.size = L) (fun τ v hv => ?_) _ _ _ ⟨hv, hm⟩
  refine RefL.bind (.refl _) fun step _ h => ?_; subst h
  exact RefL.pass WanderVars.row step (R - 1#64) (fun v => v.m.size = L) (fun v h => wanderBody_ref hL p R C l step v h) v hv.1 hv.2

theorem modWanderBody_ref (hL : L < 2 ^ 32) (p : Profile) (R C : U64) (l step : I64) (v : Model.Lyra2mod.WanderVars)
    (hm : v.m.size = L) :
    RefL (Model.Log.modWanderBody p R C l step v) (modWanderBody 32 p R C l step v) (fun a b => a = b ∧
      Lyra2.BodyPost Model.Lyra2mod.WanderVars.row step (R - 1#64) (fun v => v.m.size = L) v a) := by
  unfold Model.Log.modWanderBody modWanderBody
  rw [mask_usz]
  refine RefL.emit ?_
  refine RefL.bind (.refl _) fun i _ h => ?_; subst h
  rw [mask_usz]
  refine RefL.emit ?_
  refine RefL.bind (.refl _) fun j _ h => ?_; subst h
  refine RefL.bind (.refl _) fun a _ h => ?_; subst h
  refine RefL.bind (duplexRow_ref hL _ _ _ _ _ _ _ _ hm) fun x _ h => ?_
  obtain ⟨rfl, hx⟩ := h
  refine RefL.bind (.quiet (.of_post (iadd_post _ _ _))) fun b _ h => ?_
  obtain ⟨rfl, rfl⟩ := h
  refine RefL.bind (.quiet (.of_post (isub_post _ _ _))) fun c _ h => ?_
  obtain ⟨rfl, rfl⟩ := h
  dsimp only
  split
  · rename_i h; exact .pure ⟨rfl, h, hx⟩
  · rename_i h; exact .pure ⟨rfl, rfl, h, hx⟩

theorem modWander_ref (hL : L < 2 ^ 32) (p : Profile) (T R C : U64) (l : I64) (v : Model.Lyra2mod.WanderVars) (hv : v.row = 0)
    (hm : v.m.size = L) :
    RefL (Model.Log.modWander p T R C l v) (modWander 32 p T R C l v) (fun a b => a = b ∧ a.row = 0 ∧ a.m.size = L) := by
  unfold Model.Log.modWander modWander
  refine RefL.forLoop (fun v : Model.Lyra2mod.WanderVars => v.row = 0 ∧ v.m.size = L) (fun τ v hv => ?_) _ _ _ ⟨hv, hm⟩
  refine RefL.bind (.refl _) fun step _ h => ?_; subst h
  exact RefL.pass Model.Lyra2mod.WanderVars.row step (R - 1#64) (fun v => v.m.size = L)
    (fun v h => modWanderBody_ref hL p R C l step v h) v hv.1 hv.2

theorem wrapUp_ref (p : Profile) (k : U64) (hk : k.toNat ≤ 96) (l rowa : I64) (m : Matrix) (s : State) (hm : m.size < 2 ^ 32) :
    RefL (Model.Log.wrapUp p k l rowa m s) (wrapUp 32 p k l rowa m s) (fun a b => a = b) := by
  unfold Model.Log.wrapUp wrapUp
  refine RefL.bind (.refl _) fun a _ h => ?_; subst h
  refine RefL.bind (.tail hm _) fun t _ h => ?_; subst h
  refine RefL.bind (.refl _) fun s' _ h => ?_; subst h
  rw [squeeze_short (by decide) p s' k hk]
  exact .refl _

/-! ## Input -/

theorem writeInput_ref (hL : L < 2 ^ 32) (p : Profile) (k T R C : U64) (pwd salt : List U8) (n : I64) (m : Matrix) (hm : m.size = L) :
    RefL (Model.Log.writeInput p k pwd salt T R C n m) (writeInput 32 p k pwd salt T R C n m) (fun a b => a = b ∧ a.size = L) := by
  unfold Model.Log.writeInput writeInput
  refine RefL.bind (.of_erases (Log.writeWords_erases _ _ _) (Lyra2.writeWords_post _ _ _)) fun m1 _ h => ?_; obtain ⟨rfl, h1⟩ := h
  refine RefL.bind (.of_erases (Log.writeWords_erases _ _ _) (Lyra2.writeWords_post _ _ _)) fun m2 _ h => ?_; obtain ⟨rfl, h2⟩ := h
  refine RefL.bind (.put_same (L := L) (by omega) _ _) fun m3 _ h => ?_; obtain ⟨rfl, h3⟩ := h
  refine RefL.bind (.put_same h3 _ _) fun m4 _ h => ?_; obtain ⟨rfl, h4⟩ := h
  refine RefL.bind (.put_same h4 _ _) fun m5 _ h => ?_; obtain ⟨rfl, h5⟩ := h
  refine RefL.bind (.put_same h5 _ _) fun m6 _ h => ?_; obtain ⟨rfl, h6⟩ := h
  refine RefL.bind (.put_same h6 _ _) fun m7 _ h => ?_; obtain ⟨rfl, h7⟩ := h
  refine RefL.bind (.put_same h7 _ _) fun m8 _ h => ?_; obtain ⟨rfl, h8⟩ := h
  refine RefL.bind (.put_same h8 _ _) fun m9 _ h => ?_; obtain ⟨rfl, h9⟩ := h
  refine RefL.bind (.refl _) fun a _ h => ?_; subst h
  refine RefL.bind (.refl _) fun b _ h => ?_; subst h
  refine RefL.bind (.get (by omega) _) fun x _ h => ?_; subst h
  exact RefL.put hL h9 _ _

theorem beforeWander_ref (p : Profile) (k T : U64) {R C : Nat} (pwd salt : List U8) (hT : 1 ≤ T.toNat) (hR : 3 ≤ R) (hM : 96 * (R * C) < 2 ^ 31)
    (hI : 8 * Spec.Lyra2.nBlocks (pwd.length + salt.length) ≤ 12 * (R * C)) :
    RefL (Model.Log.beforeWander p k pwd salt T (BitVec.ofNat 64 R) (BitVec.ofNat 64 C))
      (beforeWander 32 p k pwd salt T (BitVec.ofNat 64 R) (BitVec.ofNat 64 C)) (fun a b => a = b ∧ a.2.2.1.size = 12 * (R * C)) := by
  unfold Model.Log.beforeWander beforeWander
  have hC : 0 < C := by
    by_contra hc
    have : C = 0 := by omega
    subst this
    unfold Spec.Lyra2.nBlocks at hI
    omega
  have hL : 12 * (R * C) < 2 ^ 32 := by omega
  rw [alloc_32 p (by omega) hM hC, Lyra2.allocMatrix_ok p (by omega) (by omega) hC,
    nBlocksInput_32 p (by unfold Spec.Lyra2.nBlocks at hI; omega)]
  have hR' : R ≤ R * C := Nat.le_mul_of_pos_right R hC
  dsimp only
  have hT' : ¬ T.toNat < 1 := by omega
  have hR'' : ¬ (BitVec.ofNat 64 R).toNat < 3 := by rw [Lyra2.toNat_ofNat64 (by omega)]; omega
  simp only [if_neg hT', if_neg hR'', quiet_pure, pure_bind]
  refine RefL.bind (.refl _) fun n _ h => ?_; subst h
  refine RefL.bind (writeInput_ref hL _ _ _ _ _ _ _ _ _ (by simp)) fun m _ h => ?_
  obtain ⟨rfl, hm⟩ := h
  refine RefL.bind (.refl _) fun s _ h => ?_; subst h
  refine RefL.bind (squeezeRow0_ref hL _ _ _ _ hm) fun x _ h => ?_
  obtain ⟨rfl, hm⟩ := h
  refine RefL.bind (duplexRow1_ref hL _ _ _ _ _ hm) fun x _ h => ?_
  obtain ⟨rfl, hm⟩ := h
  refine RefL.bind (setupRows_ref hL _ _ _ _ _ _ hm) fun x _ h => ?_
  obtain ⟨rfl, hm⟩ := h
  exact .pure ⟨rfl, hm⟩

/-- On the domain of 32-bit targets, and for keys of at most 96 bytes, the calls do on a 32-bit target what they do on a 64-bit one,
access by access. -/
theorem lyra2_ref (p : Profile) (k T R C : U64) (pwd salt : List U8) (h : Domain32 pwd.length salt.length T.toNat R.toNat C.toNat)
    (hk : k.toNat ≤ 96) : RefL (Model.Log.lyra2 p k pwd salt T R C) (lyra2 32 p k pwd salt T R C) (fun a b => a = b) := by
  obtain ⟨hT, hR, hmem, hin⟩ := h
  have f1 := beforeWander_ref p k T pwd salt hT hR hmem hin
  rw [BitVec.ofNat_toNat, BitVec.ofNat_toNat, BitVec.setWidth_eq, BitVec.setWidth_eq] at f1
  unfold Model.Log.lyra2 lyra2
  refine RefL.bind f1 fun x _ h => ?_
  obtain ⟨rfl, hm⟩ := h
  refine RefL.bind (wander_ref (L := 12 * (R.toNat * C.toNat)) (by omega) p T R C _ _ (by rfl) hm) fun w _ h => ?_
  obtain ⟨rfl, -, hm⟩ := h
  exact wrapUp_ref p k hk _ _ _ _ (by omega)

theorem lyra2mod_ref (p : Profile) (k T R C : U64) (pwd salt : List U8) (h : Domain32 pwd.length salt.length T.toNat R.toNat C.toNat)
    (hk : k.toNat ≤ 96) : RefL (Model.Log.lyra2mod p k pwd salt T R C) (lyra2mod 32 p k pwd salt T R C) (fun a b => a = b) := by
  obtain ⟨hT, hR, hmem, hin⟩ := h
  have f1 := beforeWander_ref p k T pwd salt hT hR hmem hin
  rw [BitVec.ofNat_toNat, BitVec.ofNat_toNat, BitVec.setWidth_eq, BitVec.setWidth_eq] at f1
  unfold Model.Log.lyra2mod lyra2mod
  refine RefL.bind f1 fun x _ h => ?_
  obtain ⟨rfl, hm⟩ := h
  refine RefL.bind (modWander_ref (L := 12 * (R.toNat * C.toNat)) (by omega) p T R C _ _ (by rfl) hm) fun w _ h => ?_
  obtain ⟨rfl, -, hm⟩ := h
  exact wrapUp_ref p k hk _ _ _ _ (by omega)

theorem RefL.returns {A B : LoggedOf ε α} (h : RefL A B (fun a b => a = b)) {log : List ε} {x : α × List ε} (hx : A log = Pure.pure x) :
    B log = Pure.pure x := by
  obtain ⟨y, hy, h1, h2⟩ := h log x hx
  rw [hy]
  congr 1
  exact Prod.ext h1.symm h2.symm

end Proofs.LogTarget

import Verif.Rust
import Mathlib.Tactic.Ring
import Mathlib.Tactic.Linarith

/-! Reasoning rules for `Res`: computations that return with a postcondition (`Sat`), and computations that return with
a postcondition or panic, but do not diverge (`Post`). -/

namespace Rust
namespace Res

variable {α β σ : Type}

/-- `m` returns a value that satisfies `Q`. -/
def Sat (m : Res α) (Q : α → Prop) : Prop := ∃ a, m = pure a ∧ Q a

/-- `m` panics, or returns a value that satisfies `Q`. -/
def Post (m : Res α) (Q : α → Prop) : Prop := m.Panics ∨ m.Sat Q

theorem pure_eq (a : α) : (pure a : Res α) = (some (.ok a) : Option (Except Panic α)) := rfl
theorem throw_eq (e : Panic) : (throw e : Res α) = (some (.error e) : Option (Except Panic α)) := rfl

theorem pure_inj {a b : α} (h : (pure a : Res α) = pure b) : a = b := by
  rw [pure_eq, pure_eq] at h
  injection h with h
  injection h

theorem pure_ne_throw {a : α} {e : Panic} (h : (pure a : Res α) = throw e) : False := by
  rw [pure_eq, throw_eq] at h
  injection h with h
  cases h

@[simp] theorem throw_bind (e : Panic) (f : α → Res β) : ((throw e : Res α) >>= f) = throw e := rfl

/-- Every computation returns, panics or diverges. -/
theorem cases (m : Res α) : (∃ a, m = pure a) ∨ m.Panics ∨ m.Diverges := by
  match h : (m : Option (Except Panic α)) with
  | none => exact .inr (.inr rfl)
  | some (.ok a) => exact .inl ⟨a, rfl⟩
  | some (.error e) => exact .inr (.inl ⟨e, rfl⟩)

theorem Sat.pure {a : α} {Q : α → Prop} (h : Q a) : Sat (pure a) Q := ⟨a, rfl, h⟩

theorem Sat.bind {m : Res α} {f : α → Res β} {Q : α → Prop} {Q' : β → Prop} (h : m.Sat Q)
    (hf : ∀ a, Q a → (f a).Sat Q') : (m >>= f).Sat Q' := by
  obtain ⟨a, rfl, ha⟩ := h
  rw [pure_bind]
  exact hf a ha

theorem Sat.mono {m : Res α} {Q Q' : α → Prop} (h : m.Sat Q) (hq : ∀ a, Q a → Q' a) : m.Sat Q' := by
  obtain ⟨a, h1, h2⟩ := h
  exact ⟨a, h1, hq a h2⟩

theorem Sat.returns {m : Res α} {a : α} (h : m.Sat (· = a)) : m = Pure.pure a := by
  obtain ⟨b, h1, rfl⟩ := h
  exact h1

theorem Sat.post {m : Res α} {Q : α → Prop} (h : m.Sat Q) : m.Post Q := .inr h

theorem Sat.not_panics {m : Res α} {Q : α → Prop} (h : m.Sat Q) : ¬ m.Panics := by
  obtain ⟨a, rfl, _⟩ := h
  rintro ⟨e, he⟩
  exact pure_ne_throw he

theorem Post.pure {a : α} {Q : α → Prop} (h : Q a) : Post (pure a) Q := .inr (.pure h)

theorem Post.throw {e : Panic} {Q : α → Prop} : Post (throw e : Res α) Q := .inl ⟨e, rfl⟩

theorem Panics.bind {m : Res α} {f : α → Res β} (h : m.Panics) : (m >>= f).Panics := by
  obtain ⟨e, rfl⟩ := h
  exact ⟨e, rfl⟩

theorem Post.bind {m : Res α} {f : α → Res β} {Q : α → Prop} {Q' : β → Prop} (h : m.Post Q)
    (hf : ∀ a, Q a → (f a).Post Q') : (m >>= f).Post Q' := by
  rcases h with h | ⟨a, rfl, ha⟩
  · exact .inl h.bind
  · rw [pure_bind]
    exact hf a ha

theorem Post.mono {m : Res α} {Q Q' : α → Prop} (h : m.Post Q) (hq : ∀ a, Q a → Q' a) : m.Post Q' := by
  rcases h with h | h
  · exact .inl h
  · exact .inr (h.mono hq)

theorem Post.and {m : Res α} {Q Q' : α → Prop} (h : m.Post Q) (h' : m.Post Q') : m.Post (fun a => Q a ∧ Q' a) := by
  rcases h with h | ⟨a, ha, h⟩
  · exact .inl h
  · rcases h' with h' | ⟨b, hb, h'⟩
    · exact .inl h'
    · subst ha
      have := pure_inj hb
      subst this
      exact .inr ⟨a, rfl, h, h'⟩

theorem Post.panics {m : Res α} (h : m.Post (fun _ => False)) : m.Panics := by
  rcases h with h | ⟨_, _, h⟩
  · exact h
  · exact h.elim

theorem Post.not_diverges {m : Res α} {Q : α → Prop} (h : m.Post Q) : ¬ m.Diverges := by
  intro hd
  unfold Diverges at hd
  subst hd
  rcases h with ⟨e, he⟩ | ⟨a, ha, _⟩
  · exact absurd he (by rw [throw_eq]; exact fun h => nomatch h)
  · exact absurd ha (by rw [pure_eq]; exact fun h => nomatch h)

theorem Post.of_pure {a : α} {Q : α → Prop} (h : Post (Pure.pure a) Q) : Q a := by
  rcases h with ⟨e, he⟩ | ⟨b, hb, h⟩
  · exact (pure_ne_throw he).elim
  · rw [pure_inj hb]; exact h

theorem Post.of_eq_pure {m : Res α} {a : α} {Q : α → Prop} (h : m.Post Q) (ha : m = Pure.pure a) : Q a := by
  subst ha; exact h.of_pure

end Res

open Res

/-- Invariant rule for `forLoop`: the body always returns and keeps the invariant. -/
theorem forLoop_sat {σ : Type} {body : Nat → σ → Res σ} (P : Nat → σ → Prop) (i n : Nat) (s : σ) (h0 : P 0 s)
    (step : ∀ j s, j < n → P j s → (body (i + j) s).Sat (P (j + 1))) : (forLoop i n body s).Sat (P n) := by
  induction n generalizing i s P with
  | zero => exact .pure h0
  | succ n ih =>
    unfold forLoop
    refine Sat.bind (step 0 s (by omega) h0) fun s' hs' => ?_
    refine ih (fun j => P (j + 1)) (i + 1) s' hs' fun j s hj h => ?_
    have := step (j + 1) s (by omega) h
    rwa [show i + (j + 1) = i + 1 + j by omega] at this

/-- Invariant rule for `forLoop`: the body panics or keeps the invariant. -/
theorem forLoop_post {σ : Type} {body : Nat → σ → Res σ} (P : Nat → σ → Prop) (i n : Nat) (s : σ) (h0 : P 0 s)
    (step : ∀ j s, j < n → P j s → (body (i + j) s).Post (P (j + 1))) : (forLoop i n body s).Post (P n) := by
  induction n generalizing i s P with
  | zero => exact .pure h0
  | succ n ih =>
    unfold forLoop
    refine Post.bind (step 0 s (by omega) h0) fun s' hs' => ?_
    refine ih (fun j => P (j + 1)) (i + 1) s' hs' fun j s hj h => ?_
    have := step (j + 1) s (by omega) h
    rwa [show i + (j + 1) = i + 1 + j by omega] at this

/-- A `for` loop panics when some iteration `j0` cannot complete. -/
theorem forLoop_panics {σ : Type} {body : Nat → σ → Res σ} (P : Nat → σ → Prop) (i n j0 : Nat) (hj0 : j0 < n) (s : σ)
    (h0 : P 0 s) (step : ∀ j s, j < j0 → P j s → (body (i + j) s).Post (P (j + 1)))
    (last : ∀ s, P j0 s → (body (i + j0) s).Panics) : (forLoop i n body s).Panics := by
  induction n generalizing i s P j0 with
  | zero => omega
  | succ n ih =>
    unfold forLoop
    cases j0 with
    | zero => exact (last s h0).bind
    | succ j0 =>
      refine Post.panics (Post.bind (step 0 s (by omega) h0) fun s' hs' => .inl ?_)
      refine ih (fun j => P (j + 1)) (i + 1) j0 (by omega) s' hs' (fun j s hj h => ?_) (fun s h => ?_)
      · have := step (j + 1) s (by omega) h
        rwa [show i + (j + 1) = i + 1 + j by omega] at this
      · have := last s h
        rwa [show i + (j0 + 1) = i + 1 + j0 by omega] at this

theorem foldlM_finRange_post {σ : Type} {n : Nat} {stmt : Fin n → σ → Res σ} (P : Nat → σ → Prop) (s : σ)
    (h0 : P 0 s) (step : ∀ (j : Fin n) s, P j s → (stmt j s).Post (P (j + 1))) :
    ((List.finRange n).foldlM (fun s w => stmt w s) s).Post (P n) := by
  induction n generalizing s P with
  | zero => exact .pure h0
  | succ n ih =>
    rw [List.finRange_succ, List.foldlM_cons]
    refine Post.bind (step 0 s h0) fun s' hs' => ?_
    rw [List.foldlM_map]
    refine ih (stmt := fun j s => stmt j.succ s) (fun j => P (j + 1)) s' hs' fun j s h => ?_
    exact step j.succ s h

theorem foldlM_finRange_sat {σ : Type} {n : Nat} {stmt : Fin n → σ → Res σ} (P : Nat → σ → Prop) (s : σ)
    (h0 : P 0 s) (step : ∀ (j : Fin n) s, P j s → (stmt j s).Sat (P (j + 1))) :
    ((List.finRange n).foldlM (fun s w => stmt w s) s).Sat (P n) := by
  induction n generalizing s P with
  | zero => exact .pure h0
  | succ n ih =>
    rw [List.finRange_succ, List.foldlM_cons]
    refine Sat.bind (step 0 s h0) fun s' hs' => ?_
    rw [List.foldlM_map]
    refine ih (stmt := fun j s => stmt j.succ s) (fun j => P (j + 1)) s' hs' fun j s h => ?_
    exact step j.succ s h

theorem unroll12_sat {σ : Type} {stmt : Fin 12 → σ → Res σ} (P : Nat → σ → Prop) (s : σ)
    (h0 : P 0 s) (step : ∀ (j : Fin 12) s, P j s → (stmt j s).Sat (P (j + 1))) : (unroll12 stmt s).Sat (P 12) :=
  foldlM_finRange_sat P s h0 step

theorem unroll12_post {σ : Type} {stmt : Fin 12 → σ → Res σ} (P : Nat → σ → Prop) (s : σ)
    (h0 : P 0 s) (step : ∀ (j : Fin 12) s, P j s → (stmt j s).Post (P (j + 1))) : (unroll12 stmt s).Post (P 12) :=
  foldlM_finRange_post P s h0 step

/-- One round of `loop`. -/
theorem loop_step {σ β : Type} (body : σ → Res (σ ⊕ β)) (s : σ) :
    loop body s = (body s >>= fun r => match r with | .inl s' => loop body s' | .inr b => pure b) := by
  rw [loop]
  rfl

/-- `loop` with a variant: it cannot diverge when every round panics, breaks with `Q`, or goes on with a smaller variant. -/
theorem loop_post {σ β : Type} {body : σ → Res (σ ⊕ β)} (P : Nat → σ → Prop) (Q : β → Prop)
    (step : ∀ n s, P n s → (body s).Post (fun r => match r with | .inl s' => ∃ n', n' < n ∧ P n' s' | .inr b => Q b))
    (n : Nat) (s : σ) (h : P n s) : (loop body s).Post Q := by
  induction n using Nat.strongRecOn generalizing s with
  | ind n ih =>
    rw [loop_step]
    refine Post.bind (step n s h) fun r hr => ?_
    match r with
    | .inl s' =>
      obtain ⟨n', hn', hp⟩ := hr
      exact ih n' hn' s' hp
    | .inr b => exact .pure hr

/-- `loop` with a variant, where every round returns. -/
theorem loop_sat {σ β : Type} {body : σ → Res (σ ⊕ β)} (P : Nat → σ → Prop) (Q : β → Prop)
    (step : ∀ n s, P n s → (body s).Sat (fun r => match r with | .inl s' => ∃ n', n' < n ∧ P n' s' | .inr b => Q b))
    (n : Nat) (s : σ) (h : P n s) : (loop body s).Sat Q := by
  induction n using Nat.strongRecOn generalizing s with
  | ind n ih =>
    rw [loop_step]
    refine Sat.bind (step n s h) fun r hr => ?_
    match r with
    | .inl s' =>
      obtain ⟨n', hn', hp⟩ := hr
      exact ih n' hn' s' hp
    | .inr b => exact .pure hr

/-! ## Vectors -/

theorem vget_lt {α : Type} {v : Array α} {i : Nat} (h : i < v.size) : vget v i = pure v[i] := by
  unfold vget; rw [Array.getElem?_eq_getElem h]

theorem vget_ge {α : Type} {v : Array α} {i : Nat} (h : v.size ≤ i) : vget v i = throw .bounds := by
  unfold vget; rw [Array.getElem?_eq_none h]

theorem vset_lt {α : Type} {v : Array α} {i : Nat} (h : i < v.size) (x : α) : vset v i x = pure (v.set i x h) := by
  unfold vset; rw [dif_pos h]

theorem vset_ge {α : Type} {v : Array α} {i : Nat} (h : v.size ≤ i) (x : α) : vset v i x = throw .bounds := by
  unfold vset; rw [dif_neg (by omega)]

theorem vget_post {α : Type} (v : Array α) (i : Nat) : (vget v i).Post (fun _ => i < v.size) := by
  by_cases h : i < v.size
  · rw [vget_lt h]; exact .pure h
  · rw [vget_ge (by omega)]; exact .throw

theorem vset_post {α : Type} (v : Array α) (i : Nat) (x : α) :
    (vset v i x).Post (fun v' => i < v.size ∧ v'.size = v.size) := by
  by_cases h : i < v.size
  · rw [vset_lt h]; exact .pure ⟨h, by simp⟩
  · rw [vset_ge (by omega)]; exact .throw

/-! ## Integers that stay in range -/

theorem ofNat_toInt {a : Nat} (h : a < 2 ^ 63) : (BitVec.ofNat 64 a).toInt = a := by
  rw [BitVec.toInt_eq_toNat_of_lt (by simp; omega)]
  simp; omega

theorem iadd_ofNat (p : Profile) {a b : Nat} (h : a + b < 2 ^ 63) :
    iadd p (BitVec.ofNat 64 a) (BitVec.ofNat 64 b) = pure (BitVec.ofNat 64 (a + b)) := by
  unfold iadd
  have : BitVec.saddOverflow (BitVec.ofNat 64 a) (BitVec.ofNat 64 b) = false := by
    unfold BitVec.saddOverflow
    rw [ofNat_toInt (by omega), ofNat_toInt (by omega)]
    simp; omega
  rw [this, BitVec.ofNat_add]; simp

theorem imul_ofNat (p : Profile) {a b : Nat} (ha : a < 2 ^ 63) (hb : b < 2 ^ 63) (h : a * b < 2 ^ 63) :
    imul p (BitVec.ofNat 64 a) (BitVec.ofNat 64 b) = pure (BitVec.ofNat 64 (a * b)) := by
  unfold imul
  have : BitVec.smulOverflow (BitVec.ofNat 64 a) (BitVec.ofNat 64 b) = false := by
    unfold BitVec.smulOverflow
    rw [ofNat_toInt ha, ofNat_toInt hb]
    have : ((a : Int) * b) < 2 ^ 63 := by exact_mod_cast h
    have : (0 : Int) ≤ (a : Int) * b := by positivity
    simp; omega
  rw [this, BitVec.ofNat_mul]; simp

theorem isub_ofNat (p : Profile) {a b : Nat} (ha : a < 2 ^ 63) (h : b ≤ a) :
    isub p (BitVec.ofNat 64 a) (BitVec.ofNat 64 b) = pure (BitVec.ofNat 64 (a - b)) := by
  unfold isub
  have : BitVec.ssubOverflow (BitVec.ofNat 64 a) (BitVec.ofNat 64 b) = false := by
    unfold BitVec.ssubOverflow
    rw [ofNat_toInt (by omega), ofNat_toInt (by omega)]
    simp; omega
  rw [this]
  have : BitVec.ofNat 64 a - BitVec.ofNat 64 b = BitVec.ofNat 64 (a - b) := by
    apply BitVec.eq_of_toNat_eq
    simp only [BitVec.toNat_sub, BitVec.toNat_ofNat]
    omega
  simp [this]

theorem usub_ofNat (p : Profile) {a b : Nat} (ha : a < 2 ^ 64) (h : b ≤ a) :
    usub p (BitVec.ofNat 64 a) (BitVec.ofNat 64 b) = pure (BitVec.ofNat 64 (a - b)) := by
  unfold usub
  have : BitVec.usubOverflow (BitVec.ofNat 64 a) (BitVec.ofNat 64 b) = false := by
    unfold BitVec.usubOverflow
    simp; omega
  rw [this]
  have : BitVec.ofNat 64 a - BitVec.ofNat 64 b = BitVec.ofNat 64 (a - b) := by
    apply BitVec.eq_of_toNat_eq
    simp only [BitVec.toNat_sub, BitVec.toNat_ofNat]
    omega
  simp [this]

theorem idiv_ofNat {a b : Nat} (ha : a < 2 ^ 63) (hb : b < 2 ^ 63) :
    idiv (BitVec.ofNat 64 a) (BitVec.ofNat 64 b) = BitVec.ofNat 64 (a / b) := by
  unfold idiv
  apply BitVec.eq_of_toInt_eq
  rw [BitVec.toInt_sdiv, ofNat_toInt ha, ofNat_toInt hb,
    ofNat_toInt (by have := Nat.div_le_self a b; omega)]
  have h1 : Int.tdiv (a : Int) (b : Int) = ((a / b : Nat) : Int) := by simp
  rw [h1]
  have := Nat.div_le_self a b
  generalize a / b = c at *
  rw [Int.bmod_def]
  split <;> omega

theorem irangeLen_ofNat {a b : Nat} (ha : a < 2 ^ 63) (hb : b < 2 ^ 63) :
    irangeLen (BitVec.ofNat 64 a) (BitVec.ofNat 64 b) = b - a := by
  unfold irangeLen
  rw [ofNat_toInt ha, ofNat_toInt hb]; omega

theorem iadd_post (p : Profile) (a b : I64) : (iadd p a b).Post (fun c => c = a + b) := by
  unfold iadd; split
  · exact .throw
  · exact .pure rfl

theorem isub_post (p : Profile) (a b : I64) : (isub p a b).Post (fun c => c = a - b) := by
  unfold isub; split
  · exact .throw
  · exact .pure rfl

theorem imul_post (p : Profile) (a b : I64) : (imul p a b).Post (fun c => c = a * b) := by
  unfold imul; split
  · exact .throw
  · exact .pure rfl

theorem ineg_post (p : Profile) (a : I64) : (ineg p a).Post (fun c => c = -a) := by
  unfold ineg; split
  · exact .throw
  · exact .pure rfl

theorem usub_post (p : Profile) (a b : I64) : (usub p a b).Post (fun c => c = a - b) := by
  unfold usub; split
  · exact .throw
  · exact .pure rfl

end Rust

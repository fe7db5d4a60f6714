import Verif.Proofs.Res

/-! `loop` as the limit of its finite unrollings. -/

namespace Rust

/-- At most `n` rounds of a loop; `none` if it has not ended by then. -/
def loopN {σ β : Type} (body : σ → Res (σ ⊕ β)) : Nat → σ → Res β
  | 0, _ => (none : Option (Except Panic β))
  | n + 1, s => do
    match (← body s) with
    | .inl s' => loopN body n s'
    | .inr b => pure b

theorem bind_some {α β : Type} {m : Res α} {f : α → Res β} {r : Except Panic β} (h : (m >>= f) = (some r : Option _)) :
    (∃ e, m = throw e ∧ r = .error e) ∨ ∃ a, m = pure a ∧ f a = (some r : Option _) := by
  rcases Res.cases m with ⟨a, rfl⟩ | ⟨e, rfl⟩ | hd
  · exact .inr ⟨a, rfl, by rw [pure_bind] at h; exact h⟩
  · refine .inl ⟨e, rfl, ?_⟩
    rw [Res.throw_bind, Res.throw_eq] at h
    injection h with h
    exact h.symm
  · unfold Res.Diverges at hd
    subst hd
    cases h

theorem loop_of_loopN {σ β : Type} (body : σ → Res (σ ⊕ β)) (n : Nat) (s : σ) (r : Except Panic β)
    (h : loopN body n s = (some r : Option _)) : loop body s = (some r : Option _) := by
  induction n generalizing s with
  | zero => cases h
  | succ n ih =>
    rw [loopN] at h
    rw [loop]
    rcases bind_some h with ⟨e, he, rfl⟩ | ⟨a, ha, h⟩
    · rw [he]; rfl
    · rw [ha, pure_bind]
      match a with
      | .inl s' => exact ih s' h
      | .inr b => exact h

theorem loopN_of_loop {σ β : Type} (body : σ → Res (σ ⊕ β)) :
    ∀ s r, loop body s = (some r : Option (Except Panic β)) → ∃ n, loopN body n s = (some r : Option _) := by
  refine loop.fixpoint_induct body (fun f => ∀ s, ∀ r, f s = (some r : Option (Except Panic β)) → ∃ n, loopN body n s = (some r : Option _))
    ?_ fun f ih s r h => ?_
  · refine Lean.Order.admissible_pi_apply (β := fun _ => Res β)
      (fun s x => ∀ r, x = (some r : Option (Except Panic β)) → ∃ n, loopN body n s = (some r : Option _)) fun s => ?_
    refine Lean.Order.admissible_flatOrder (b := (none : Option (Except Panic β))) _ ?_
    intro r h
    cases h
  · rcases bind_some h with ⟨e, he, rfl⟩ | ⟨a, ha, h⟩
    · exact ⟨1, by rw [loopN, he]; rfl⟩
    · match a with
      | .inl s' =>
        obtain ⟨n, hn⟩ := ih s' r h
        exact ⟨n + 1, by rw [loopN, ha, pure_bind]; exact hn⟩
      | .inr b => exact ⟨1, by rw [loopN, ha, pure_bind]; exact h⟩

/-- Two loops whose finite unrollings agree, up to a change of the result, agree. -/
theorem loop_map {σ τ β γ : Type} {body : σ → Res (σ ⊕ β)} {body' : τ → Res (τ ⊕ γ)} (f : σ → τ) (g : β → γ)
    (h : ∀ s, (body s >>= fun x => pure (x.map f g)) = body' (f s)) (s : σ) :
    (loop body s >>= fun b => pure (g b)) = loop body' (f s) := by
  have hN : ∀ n s, (loopN body n s >>= fun b => pure (g b)) = loopN body' n (f s) := by
    intro n
    induction n with
    | zero => intro s; rfl
    | succ n ih =>
      intro s
      rw [loopN, loopN, ← h s, bind_assoc, bind_assoc]
      congr 1
      funext x
      rw [pure_bind]
      match x with
      | .inl s' => exact ih s'
      | .inr b => exact pure_bind _ _
  have key : ∀ r, loop body' (f s) = (some r : Option (Except Panic γ)) ↔
      (loop body s >>= fun b => pure (g b)) = (some r : Option (Except Panic γ)) := by
    intro r
    constructor
    · intro h'
      obtain ⟨n, hn⟩ := loopN_of_loop body' _ _ h'
      rw [← hN n s] at hn
      rcases bind_some hn with ⟨e, he, rfl⟩ | ⟨a, ha, hr⟩
      · rw [loop_of_loopN body n s _ he]; rfl
      · rw [loop_of_loopN body n s _ ha]; exact hr
    · intro h'
      rcases bind_some h' with ⟨e, he, rfl⟩ | ⟨a, ha, hr⟩
      · obtain ⟨n, hn⟩ := loopN_of_loop body _ _ he
        refine loop_of_loopN body' n _ _ ?_
        rw [← hN n s, hn]
        rfl
      · obtain ⟨n, hn⟩ := loopN_of_loop body _ _ ha
        refine loop_of_loopN body' n _ _ ?_
        rw [← hN n s, hn]
        exact hr
  match hl : (loop body' (f s) : Option (Except Panic γ)) with
  | some r => exact (key r).mp hl
  | none =>
    match hr : ((loop body s >>= fun b => pure (g b) : Res γ) : Option (Except Panic γ)) with
    | none => rfl
    | some r =>
      have := (key r).mpr hr
      rw [hl] at this
      cases this

end Rust

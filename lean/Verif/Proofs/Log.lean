import Verif.Model.Log
import Verif.Spec.Access
import Verif.Proofs.Trace

/-! The log of a run: rules, and the log of every piece of `lyra2`. -/

namespace Proofs.Log
open Rust Rust.Res Model.Log
open Model.Lyra2 (State Matrix SetupVars WanderVars BLOCKLENINT64 BLOCKLENBYTES BLOCKLENBLAKE2SAFEBYTES blake2b_lyra
  reduced_blake2b_lyra idx idxRev idxRow0 idxRow1Rev)
open Proofs.Lyra2 (base idx_ok idxRev_ok idxRow0_ok idxRow1Rev_ok bounds toNat_ofNat64)

variable {α β σ : Type}

/-- If `m` returns, then `l` returns the same value and appends `E` to the log. -/
def Logs (l : Logged α) (m : Res α) (E : List Event) : Prop := ∀ a, m = pure a → ∀ log, l log = pure (a, log ++ E)

theorem bind_returns {m : Res α} {f : α → Res β} {b : β} (h : (m >>= f) = pure b) : ∃ a, m = pure a ∧ f a = pure b := by
  rcases Res.cases m with ⟨a, rfl⟩ | ⟨e, rfl⟩ | hd
  · exact ⟨a, rfl, by rw [pure_bind] at h; exact h⟩
  · rw [throw_bind] at h; exact (pure_ne_throw h.symm).elim
  · unfold Diverges at hd
    subst hd
    cases h

theorem bind_apply (l : Logged α) (f : α → Logged β) (log : List Event) :
    (l >>= f) log = l log >>= fun x => f x.1 x.2 := rfl

theorem Logs.quiet (m : Res α) : Logs (Model.Log.quiet m) m [] := by
  rintro a rfl log
  unfold Model.Log.quiet
  rw [pure_bind, List.append_nil]

theorem Logs.pure (a : α) : Logs (pure a) (Pure.pure a) [] := by
  intro b hb log
  have := pure_inj hb
  subst this
  rw [List.append_nil]
  rfl

theorem Logs.bind {l : Logged α} {m : Res α} {f : α → Logged β} {g : α → Res β} {E E' : List Event} (h : Logs l m E)
    (hf : ∀ a, m = Pure.pure a → Logs (f a) (g a) E') : Logs (l >>= f) (m >>= g) (E ++ E') := by
  intro b hb log
  obtain ⟨a, ha, hb⟩ := bind_returns hb
  rw [bind_apply, h a ha log, pure_bind]
  show f a (log ++ E) = _
  rw [hf a ha b hb, List.append_assoc]

/-- Binding a value that is known. -/
theorem Logs.bind_quiet {m : Res α} {a : α} (hm : m = Pure.pure a) {f : α → Logged β} {g : Res β} {E : List Event}
    (hf : Logs (f a) g E) : Logs (Model.Log.quiet m >>= f) g E := by
  intro b hb log
  rw [bind_apply, Logs.quiet m a hm log, pure_bind, List.append_nil]
  exact hf b hb log

theorem Logs.emit {e : Event} {f : Unit → Logged β} {g : Res β} {E : List Event} (hf : Logs (f ()) g E) :
    Logs (Model.Log.emit e >>= f) g (e :: E) := by
  intro b hb log
  rw [bind_apply]
  unfold Model.Log.emit
  rw [pure_bind]
  show f () (log ++ [e]) = _
  rw [hf b hb, List.append_assoc]
  rfl

theorem Logs.cast {l : Logged α} {m : Res α} {E E' : List Event} (h : Logs l m E) (he : E = E') : Logs l m E' := he ▸ h

theorem Logs.get (m : Matrix) (i : Nat) : Logs (Model.Log.get m i) (vget m i) [.read i] := .emit (.quiet _)

theorem Logs.put (m : Matrix) (i : Nat) (x : U64) : Logs (Model.Log.put m i x) (vset m i x) [.write i] := .emit (.quiet _)

theorem Logs.tail (m : Matrix) (i : Nat) : Logs (Model.Log.tail m i) (splitRight m i) [.copy i (m.size - i)] := by
  intro t ht log
  unfold Model.Log.tail
  rw [bind_apply, Logs.quiet _ t ht log, pure_bind, List.append_nil]
  have hs : t.size = m.size - i := by
    unfold splitRight at ht
    split at ht
    · have := pure_inj ht
      subst this
      simp
    · exact (pure_ne_throw ht.symm).elim
  rw [← hs]
  rfl

theorem Logs.round {s : State} {f : State → Logged β} {g : Res β} {E : List Event} (hf : Logs (f (reduced_blake2b_lyra s)) g E) :
    Logs (Model.Log.round s >>= f) g (.round :: E) := by
  unfold Model.Log.round
  rw [bind_assoc]
  apply Logs.emit
  rw [pure_bind]
  exact hf

theorem Logs.permute {s : State} {f : State → Logged β} {g : Res β} {E : List Event} (hf : Logs (f (blake2b_lyra s)) g E) :
    Logs (Model.Log.permute s >>= f) g (.permute :: E) := by
  unfold Model.Log.permute
  rw [bind_assoc]
  apply Logs.emit
  rw [pure_bind]
  exact hf

/-- A `for` loop with an invariant. -/
theorem Logs.forLoop {body : Nat → σ → Logged σ} {body' : Nat → σ → Res σ} {E : Nat → List Event} (P : Nat → σ → Prop)
    (i n : Nat) (s : σ) (h0 : P 0 s) (h : ∀ j s, j < n → P j s → Logs (body (i + j) s) (body' (i + j) s) (E j))
    (hP : ∀ j s s', j < n → P j s → body' (i + j) s = Pure.pure s' → P (j + 1) s') :
    Logs (Model.Log.forLoop i n body s) (Rust.forLoop i n body' s) ((List.range n).flatMap E) := by
  intro a ha log
  unfold Model.Log.forLoop
  induction n generalizing i s P E log with
  | zero =>
    unfold Rust.forLoop at ha ⊢
    rw [← pure_inj ha]
    simp
  | succ n ih =>
    unfold Rust.forLoop at ha ⊢
    obtain ⟨s', h1, h2⟩ := bind_returns ha
    have hb : body i s log = Pure.pure (s', log ++ E 0) := h 0 s (by omega) h0 s' h1 log
    dsimp only
    rw [hb, pure_bind]
    rw [ih (E := fun j => E (j + 1)) (fun j => P (j + 1)) (i + 1) s' (hP 0 s s' (by omega) h0 h1) (fun j s hj hp => ?_)
      (fun j s t hj hp => ?_) h2]
    · rw [List.range_succ_eq_map, List.flatMap_cons, List.flatMap_map, List.append_assoc]
    · rw [show i + 1 + j = i + (j + 1) by omega]
      exact h (j + 1) s (by omega) hp
    · rw [show i + 1 + j = i + (j + 1) by omega]
      exact hP (j + 1) s t (by omega) hp

theorem Logs.forLoop' {body : Nat → σ → Logged σ} {body' : Nat → σ → Res σ} {E : Nat → List Event}
    (i n : Nat) (s : σ) (h : ∀ j s, j < n → Logs (body (i + j) s) (body' (i + j) s) (E j)) :
    Logs (Model.Log.forLoop i n body s) (Rust.forLoop i n body' s) ((List.range n).flatMap E) :=
  .forLoop (fun _ _ => True) i n s trivial (fun j s hj _ => h j s hj) fun _ _ _ _ _ _ => trivial

theorem logs_foldlM {γ : Type} (l : List γ) {stmt : γ → σ → Logged σ} {stmt' : γ → σ → Res σ} {E : γ → List Event} (s : σ)
    (h : ∀ w s, Logs (stmt w s) (stmt' w s) (E w)) (a : σ) (ha : l.foldlM (fun s w => stmt' w s) s = pure a)
    (log : List Event) :
    l.foldlM (fun x w => stmt w x.1 x.2) (s, log) = (pure (a, log ++ l.flatMap E) : Res _) := by
  induction l generalizing s log with
  | nil =>
    rw [List.foldlM_nil] at ha ⊢
    rw [← pure_inj ha]
    simp
  | cons w l ih =>
    rw [List.foldlM_cons] at ha ⊢
    obtain ⟨s', h1, h2⟩ := bind_returns ha
    rw [h w s s' h1 log, pure_bind, ih s' h2, List.flatMap_cons, List.append_assoc]

theorem Logs.unroll12 {stmt : Fin 12 → σ → Logged σ} {stmt' : Fin 12 → σ → Res σ} {E : Nat → List Event} (s : σ)
    (h : ∀ w s, Logs (stmt w s) (stmt' w s) (E w)) :
    Logs (Model.Log.unroll12 stmt s) (Rust.unroll12 stmt' s) (Spec.Access.each E) := by
  intro a ha log
  exact logs_foldlM (List.finRange 12) s h a ha log

/-! ## Pieces without the matrix shape -/

theorem squeeze_log (p : Profile) (s : State) (k : U64) (hk : k.toNat ≤ 96) :
    Logs (Model.Log.squeeze p s k) (Model.Lyra2.squeeze p s k) (List.replicate (k.toNat / 96 + 1) .permute) := by
  unfold Model.Log.squeeze Model.Lyra2.squeeze
  refine (Logs.bind (.quiet _) fun out _ => Logs.bind (.quiet _) fun jmax hj =>
    (Logs.bind (E := (List.range (k.toNat / 96 + 1)).flatMap fun _ => [.permute]) (E' := []) ?_ fun x _ => .pure _)).cast ?_
  · have hk' : k = BitVec.ofNat 64 k.toNat := by rw [BitVec.ofNat_toNat, BitVec.setWidth_eq]
    have e : idiv k BLOCKLENBYTES = BitVec.ofNat 64 (k.toNat / 96) := by
      conv_lhs => rw [hk']
      exact idiv_ofNat (by omega) (by decide)
    rw [e] at hj
    rw [show (1 : I64) = BitVec.ofNat 64 1 from rfl, iadd_ofNat p (by omega)] at hj
    have := pure_inj hj
    subst this
    have e2 : irangeLen 0 (BitVec.ofNat 64 (k.toNat / 96 + 1)) = k.toNat / 96 + 1 := by
      have := irangeLen_ofNat (a := 0) (b := k.toNat / 96 + 1) (by omega) (by omega)
      simpa using this
    rw [e2]
    refine .forLoop' _ _ _ fun j x _ => ?_
    obtain ⟨tmp, o, st⟩ := x
    dsimp only
    refine (Logs.bind (.quiet _) fun out _ => by exact Logs.permute (.pure _)).cast ?_
    rfl
  · rw [← List.map_eq_flatMap, List.map_const', List.length_range]
    simp

theorem absorb_block_log (s : State) (w : Array U64) :
    Logs (Model.Log.absorb_block s w) (Model.Lyra2.absorb_block s w) [.permute] := by
  unfold Model.Log.absorb_block Model.Lyra2.absorb_block
  refine Logs.bind (E := []) (.quiet _) fun s _ => ?_
  have := Logs.permute (s := s) (f := fun s => (pure s : Logged State)) (.pure _)
  rw [bind_pure] at this
  exact this

theorem absorb_safe_log (s : State) (w : Array U64) :
    Logs (Model.Log.absorb_block_blake2_safe s w) (Model.Lyra2.absorb_block_blake2_safe s w) [.permute] := by
  unfold Model.Log.absorb_block_blake2_safe Model.Lyra2.absorb_block_blake2_safe
  refine Logs.bind (E := []) (.quiet _) fun s _ => ?_
  have := Logs.permute (s := s) (f := fun s => (pure s : Logged State)) (.pure _)
  rw [bind_pure] at this
  exact this

theorem writeWords_log (bytes : List U8) (at_ : Nat) (m : Matrix) :
    Logs (Model.Log.writeWords bytes at_ m) (Model.Lyra2.writeWords bytes at_ m)
      ((List.range (bytes.length / 8)).flatMap fun j => [.write (at_ + j)]) := by
  unfold Model.Log.writeWords Model.Lyra2.writeWords
  refine .forLoop' _ _ _ fun j m _ => ?_
  dsimp only
  rw [Nat.zero_add]
  exact Logs.bind (E := []) (.quiet _) fun b _ => Logs.bind (E := []) (.quiet _) fun x _ => .put _ _ _

theorem writeInput_log (p : Profile) (k : U64) (pwd salt : List U8) (T R C : U64) (n : Nat) (hn0 : 0 < n) (hn : 64 * n < 2 ^ 63) (m : Matrix) :
    Logs (Model.Log.writeInput p k pwd salt T R C (BitVec.ofNat 64 n) m)
      (Model.Lyra2.writeInput p k pwd salt T R C (BitVec.ofNat 64 n) m)
      (Spec.Access.input (pwd.length / 8 + salt.length / 8 + 7) n) := by
  unfold Model.Log.writeInput Model.Lyra2.writeInput
  dsimp only
  refine (Logs.bind (writeWords_log _ _ _) fun m _ => Logs.bind (writeWords_log _ _ _) fun m _ =>
    Logs.bind (.put _ _ _) fun m _ => Logs.bind (.put _ _ _) fun m _ => Logs.bind (.put _ _ _) fun m _ =>
    Logs.bind (.put _ _ _) fun m _ => Logs.bind (.put _ _ _) fun m _ => Logs.bind (.put _ _ _) fun m _ =>
    Logs.bind (.put _ _ _) fun m _ => Logs.bind (.quiet _) fun a ha => Logs.bind (.quiet _) fun b hb =>
    Logs.bind (E := [.read (8 * n - 1)]) (E' := [.write (8 * n - 1)]) ?_ fun x _ => ?_).cast ?_
  · have : b.toNat = 8 * n - 1 := by
      rw [show BLOCKLENBLAKE2SAFEBYTES = BitVec.ofNat 64 64 from rfl, imul_ofNat p (by omega) (by omega) (by omega)] at ha
      have := pure_inj ha
      subst this
      rw [show (8 : I64) = BitVec.ofNat 64 8 from rfl, idiv_ofNat (by omega) (by omega), show (1 : I64) = BitVec.ofNat 64 1 from rfl,
        isub_ofNat p (by omega) (by omega)] at hb
      have := pure_inj hb
      subst this
      rw [toNat_ofNat64 (by omega)]
      omega
    rw [← this]
    exact .get _ _
  · have : b.toNat = 8 * n - 1 := by
      rw [show BLOCKLENBLAKE2SAFEBYTES = BitVec.ofNat 64 64 from rfl, imul_ofNat p (by omega) (by omega) (by omega)] at ha
      have := pure_inj ha
      subst this
      rw [show (8 : I64) = BitVec.ofNat 64 8 from rfl, idiv_ofNat (by omega) (by omega), show (1 : I64) = BitVec.ofNat 64 1 from rfl,
        isub_ofNat p (by omega) (by omega)] at hb
      have := pure_inj hb
      subst this
      rw [toNat_ofNat64 (by omega)]
      omega
    rw [← this]
    exact .put _ _ _
  · unfold Spec.Access.input
    generalize pwd.length / 8 = a
    generalize salt.length / 8 = b
    have h1 : ∀ c d, ((List.range d).flatMap fun j => [Event.write (c + j)]) = (List.range' c d).map .write := by
      intro c d
      rw [List.range'_eq_map_range, List.map_map, ← List.map_eq_flatMap]
      rfl
    rw [h1, h1]
    have h2 : (List.range (a + b + 7)).map Event.write = (List.range' 0 a).map .write ++ ((List.range' (0 + a) b).map .write ++
        (List.range' (0 + a + b) 7).map .write) := by
      rw [← List.map_append, ← List.map_append, List.range_eq_range', List.range'_append_1, List.range'_append_1, Nat.add_assoc]
    rw [h2]
    simp [List.range'_succ]

theorem absorbInput_log {n : Nat} (hn : n < 2 ^ 63) (m : Matrix) (s : State) :
    Logs (Model.Log.absorbInput (BitVec.ofNat 64 n) m s) (Model.Lyra2.absorbInput (BitVec.ofNat 64 n) m s)
      (Spec.Access.absorb m.size n) := by
  unfold Model.Log.absorbInput Model.Lyra2.absorbInput
  have e2 : irangeLen 0 (BitVec.ofNat 64 n) = n := by
    have := irangeLen_ofNat (a := 0) (b := n) (by omega) (by omega)
    simpa using this
  rw [e2]
  refine (Logs.bind (E := Spec.Access.absorb m.size n) (E' := []) ?_ fun x _ => .pure _).cast (by simp)
  refine Logs.forLoop (fun j x => x.2 = 8 * j) _ _ _ rfl (fun j x hj hx => ?_) fun j x x' hj hx hb => ?_
  · obtain ⟨st, pt⟩ := x
    dsimp only at hx ⊢
    subst hx
    exact (Logs.bind (.tail _ _) fun r _ => Logs.bind (absorb_safe_log _ _) fun s _ => .pure _).cast rfl
  · obtain ⟨st, pt⟩ := x
    dsimp only at hx hb
    obtain ⟨r, -, hb⟩ := bind_returns hb
    obtain ⟨s', -, hb⟩ := bind_returns hb
    rw [← pure_inj hb]
    dsimp only
    omega

/-! ## Rows -/

section rows
variable {R C : Nat} (p : Profile) (hM : 12 * (R * C) < 2 ^ 60) (s : State) (m : Matrix)
include hM

theorem squeezeRow0_log (hR : 0 < R) (hC : 0 < C) :
    Logs (Model.Log.squeezeRow0 p (BitVec.ofNat 64 C) s m) (Model.Lyra2.squeezeRow0 p (BitVec.ofNat 64 C) s m)
      (Spec.Access.row0 C) := by
  obtain ⟨-, -, h12, hC', -, -, -⟩ := bounds hM hR hC
  unfold Model.Log.squeezeRow0 Model.Lyra2.squeezeRow0
  have h1 : isub p (BitVec.ofNat 64 C) 1 = pure (BitVec.ofNat 64 (C - 1)) := by
    rw [show (1 : I64) = BitVec.ofNat 64 1 from rfl, isub_ofNat p (by omega) (by omega)]
  have h2 : imul p (BitVec.ofNat 64 (C - 1)) BLOCKLENINT64 = pure (BitVec.ofNat 64 (12 * (C - 1))) := by
    rw [show BLOCKLENINT64 = BitVec.ofNat 64 12 from rfl, imul_ofNat p (by omega) (by omega) (by omega), Nat.mul_comm]
  rw [h1, pure_bind, h2, pure_bind]
  refine .bind_quiet rfl (.bind_quiet h2 ?_)
  rw [toNat_ofNat64 (by omega)]
  refine (Logs.bind (E := Spec.Access.row0 C) (E' := []) ?_ fun x _ => .pure _).cast (by simp)
  refine Logs.forLoop (fun j x => x.2.2 = BitVec.ofNat 64 (12 * (C - 1)) - BitVec.ofNat 64 (12 * j)) _ _ _ (by simp) (fun j x hj hx => ?_)
    fun j x x' hj hx hb => ?_
  · obtain ⟨st, m, pt⟩ := x
    dsimp only at hx ⊢
    have hpt : pt = BitVec.ofNat 64 (12 * (C - 1 - j)) := by
      rw [hx]
      apply BitVec.eq_of_toNat_eq
      rw [BitVec.toNat_sub, toNat_ofNat64 (by omega), toNat_ofNat64 (by omega), toNat_ofNat64 (by omega)]
      omega
    subst hpt
    refine (Logs.bind (E := Spec.Access.each fun w => [.write (Spec.Access.word C 0 (C - 1 - j) w)]) (.unroll12 _ fun w m => ?_) fun m _ =>
      by exact Logs.round (.pure _)).cast rfl
    have hw := w.isLt
    rw [iadd_ofNat p (by omega), pure_bind]
    refine .bind_quiet rfl ?_
    rw [toNat_ofNat64 (by omega)]
    have e : 12 * (C - 1 - j) + w.val = Spec.Access.word C 0 (C - 1 - j) w := by unfold Spec.Access.word; omega
    rw [e]
    exact .put _ _ _
  · obtain ⟨st, m, pt⟩ := x
    dsimp only at hx hb
    obtain ⟨r, -, hb⟩ := bind_returns hb
    rw [← pure_inj hb]
    dsimp only
    rw [hx, BitVec.sub_sub, show BLOCKLENINT64 = BitVec.ofNat 64 12 from rfl, ← BitVec.ofNat_add, Nat.mul_succ]

theorem duplexRow1_log (hR : 1 < R) (hC : 0 < C) :
    Logs (Model.Log.duplexRow1 p (BitVec.ofNat 64 C) (BitVec.ofNat 64 (12 * C)) s m)
      (Model.Lyra2.duplexRow1 p (BitVec.ofNat 64 C) (BitVec.ofNat 64 (12 * C)) s m) (Spec.Access.row1 C) := by
  obtain ⟨-, -, h12, hC', -, -, -⟩ := bounds hM hR hC
  unfold Model.Log.duplexRow1 Model.Lyra2.duplexRow1
  rw [toNat_ofNat64 (by omega)]
  refine .forLoop' _ _ _ fun c x hc => ?_
  obtain ⟨st, m⟩ := x
  dsimp only
  rw [Nat.zero_add]
  refine (Logs.bind (E := Spec.Access.each fun w => [.read (Spec.Access.word C 0 c w)]) (.unroll12 _ fun w s => ?_) fun s _ =>
    Logs.round (Logs.bind (E := Spec.Access.each fun w => [.read (Spec.Access.word C 0 c w), .write (Spec.Access.word C 1 (C - 1 - c) w)])
      (.unroll12 _ fun w s => ?_) fun m _ => .pure _)).cast ?_
  · rw [idxRow0_ok p hM (by omega) hc, pure_bind]
    exact .bind_quiet rfl (Logs.bind (.get _ _) fun _ _ => .pure _)
  · rw [idxRow0_ok p hM (by omega) hc, pure_bind]
    refine .bind_quiet rfl (Logs.bind (E := [_]) (.get _ _) fun _ _ => ?_)
    rw [idxRow1Rev_ok p hM hR hc, pure_bind]
    exact .bind_quiet rfl (.put _ _ _)
  · simp

theorem absorbSum_log {prev star c : Nat} (hp : prev < R) (ha : star < R) (hc : c < C) :
    Logs (Model.Log.absorbSum p (BitVec.ofNat 64 (12 * C)) (BitVec.ofNat 64 c) (BitVec.ofNat 64 prev) (BitVec.ofNat 64 star) m s)
      (Model.Lyra2.absorbSum p (BitVec.ofNat 64 (12 * C)) (BitVec.ofNat 64 c) (BitVec.ofNat 64 prev) (BitVec.ofNat 64 star) m s)
      (Spec.Access.each fun w => [.read (Spec.Access.word C prev c w), .read (Spec.Access.word C star c w)]) := by
  unfold Model.Log.absorbSum Model.Lyra2.absorbSum
  refine .unroll12 _ fun w s => ?_
  rw [idx_ok p hM hp hc, pure_bind]
  refine .bind_quiet rfl (Logs.bind (E := [_]) (.get _ _) fun _ _ => ?_)
  rw [idx_ok p hM ha hc, pure_bind]
  exact .bind_quiet rfl (Logs.bind (.get _ _) fun _ _ => .pure _)

theorem xorRotW_log {star c : Nat} (ha : star < R) (hc : c < C) :
    Logs (Model.Log.xorRotW p (BitVec.ofNat 64 (12 * C)) (BitVec.ofNat 64 c) (BitVec.ofNat 64 star) s m)
      (Model.Lyra2.xorRotW p (BitVec.ofNat 64 (12 * C)) (BitVec.ofNat 64 c) (BitVec.ofNat 64 star) s m)
      (Spec.Access.each fun w => [.read (Spec.Access.word C star c w), .write (Spec.Access.word C star c w)]) := by
  unfold Model.Log.xorRotW Model.Lyra2.xorRotW
  refine .unroll12 _ fun w m => ?_
  rw [idx_ok p hM ha hc, pure_bind]
  exact .bind_quiet rfl (Logs.bind (E := [_]) (.get _ _) fun _ _ => .put _ _ _)

theorem duplexRowSetup_log {prev star row : Nat} (hp : prev < R) (ha : star < R) (hr : row < R) (hC : 0 < C) :
    Logs (Model.Log.duplexRowSetup p (BitVec.ofNat 64 C) (BitVec.ofNat 64 (12 * C)) (BitVec.ofNat 64 prev) (BitVec.ofNat 64 star)
        (BitVec.ofNat 64 row) s m)
      (Model.Lyra2.duplexRowSetup p (BitVec.ofNat 64 C) (BitVec.ofNat 64 (12 * C)) (BitVec.ofNat 64 prev) (BitVec.ofNat 64 star)
        (BitVec.ofNat 64 row) s m) (Spec.Access.setupRow C prev star row) := by
  obtain ⟨-, -, h12, hC', -, -, -⟩ := bounds hM hr hC
  unfold Model.Log.duplexRowSetup Model.Lyra2.duplexRowSetup
  rw [toNat_ofNat64 (by omega)]
  refine .forLoop' _ _ _ fun c x hc => ?_
  obtain ⟨st, m⟩ := x
  dsimp only
  rw [Nat.zero_add]
  refine (Logs.bind (absorbSum_log p hM _ _ hp ha hc) fun s _ =>
    Logs.round (Logs.bind (E := Spec.Access.each fun w => [.read (Spec.Access.word C prev c w), .write (Spec.Access.word C row (C - 1 - c) w)])
      (.unroll12 _ fun w s => ?_) fun m _ => Logs.bind (xorRotW_log p hM _ _ ha hc) fun m _ => .pure _)).cast ?_
  · rw [idx_ok p hM hp hc, pure_bind]
    refine .bind_quiet rfl (Logs.bind (E := [_]) (.get _ _) fun _ _ => ?_)
    rw [idxRev_ok p hM hr hc, pure_bind]
    exact .bind_quiet rfl (.put _ _ _)
  · simp

theorem duplexRow_log {prev star row : Nat} (hp : prev < R) (ha : star < R) (hr : row < R) (hC : 0 < C) :
    Logs (Model.Log.duplexRow p (BitVec.ofNat 64 C) (BitVec.ofNat 64 (12 * C)) (BitVec.ofNat 64 prev) (BitVec.ofNat 64 star)
        (BitVec.ofNat 64 row) s m)
      (Model.Lyra2.duplexRow p (BitVec.ofNat 64 C) (BitVec.ofNat 64 (12 * C)) (BitVec.ofNat 64 prev) (BitVec.ofNat 64 star)
        (BitVec.ofNat 64 row) s m) (Spec.Access.wanderRow C prev star row) := by
  obtain ⟨-, -, h12, hC', -, -, -⟩ := bounds hM hr hC
  unfold Model.Log.duplexRow Model.Lyra2.duplexRow
  rw [toNat_ofNat64 (by omega)]
  refine .forLoop' _ _ _ fun c x hc => ?_
  obtain ⟨st, m⟩ := x
  dsimp only
  rw [Nat.zero_add]
  refine (Logs.bind (absorbSum_log p hM _ _ hp ha hc) fun s _ =>
    Logs.round (Logs.bind (E := Spec.Access.each fun w => [.read (Spec.Access.word C row c w), .write (Spec.Access.word C row c w)])
      (.unroll12 _ fun w s => ?_) fun m _ => Logs.bind (xorRotW_log p hM _ _ ha hc) fun m _ => .pure _)).cast ?_
  · rw [idx_ok p hM hr hc, pure_bind]
    exact .bind_quiet rfl (Logs.bind (E := [_]) (.get _ _) fun _ _ => .put _ _ _)
  · simp

end rows

end Proofs.Log

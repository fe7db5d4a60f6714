import Verif.Proofs.LoopIter
import Verif.Source.Labels
import Verif.Source.Observe

/-! Values of the same shape: the operations of the interpreter keep it, and whether and why they panic depends on it alone,
except where an operation computes with overflow checks or with positions. -/

namespace Source
open Rust
open Model.Log (LoggedOf quiet)

variable {ε α β : Type}

/-! ## Outcomes -/

/-- The run does not return. -/
def Fails (m : Res α) : Prop := ∀ a, m ≠ pure a

theorem Fails.bind {m : Res α} (h : Fails m) (f : α → Res β) : Fails (m >>= f) := by
  match m with
  | some (.ok a) => exact (h a rfl).elim
  | some (.error e) => intro b hb; cases hb
  | none => intro b hb; cases hb

theorem fails_or_returns (m : Res α) : Fails m ∨ ∃ a, m = pure a := by
  match m with
  | some (.ok a) => exact .inr ⟨a, rfl⟩
  | some (.error e) => exact .inl fun a h => nomatch h
  | none => exact .inl fun a h => nomatch h

/-- Two runs end in the same way: both return, with related results, or both panic for the same reason, or neither ends.
Unless the comparison is strict, nothing is said when one of the two does not return. -/
inductive Same (s : Bool) (R : α → α → Prop) : Res α → Res α → Prop
  | ret {a b : α} (h : R a b) : Same s R (pure a) (pure b)
  | panic (e : Panic) : Same s R (throw e) (throw e)
  | never : Same s R (none : Option (Except Panic α)) (none : Option (Except Panic α))
  | left {m m' : Res α} (hs : s = false) (h : Fails m) : Same s R m m'
  | right {m m' : Res α} (hs : s = false) (h : Fails m') : Same s R m m'

variable {s : Bool}

theorem Same.refl {R : α → α → Prop} (h : ∀ a, R a a) (m : Res α) : Same s R m m := by
  match m with
  | some (.ok a) => exact .ret (h a)
  | some (.error e) => exact .panic e
  | none => exact .never

theorem Same.lax (hs : s = false) (m m' : Res α) : Same s (fun _ _ => True) m m' := by
  rcases fails_or_returns m with h | ⟨a, rfl⟩
  · exact .left hs h
  · rcases fails_or_returns m' with h | ⟨b, rfl⟩
    · exact .right hs h
    · exact .ret trivial

theorem Same.bind {R : α → α → Prop} {S : β → β → Prop} {m m' : Res α} {f f' : α → Res β} (h : Same s R m m')
    (hf : ∀ a b, R a b → Same s S (f a) (f' b)) : Same s S (m >>= f) (m' >>= f') := by
  cases h with
  | ret h => exact hf _ _ h
  | panic e => exact .panic e
  | never => exact .never
  | left hs h => exact .left hs (h.bind f)
  | right hs h => exact .right hs (h.bind f')

theorem Same.mono {R S : α → α → Prop} {m m' : Res α} (h : Same s R m m') (hs : ∀ a b, R a b → S a b) : Same s S m m' := by
  cases h with
  | ret h => exact .ret (hs _ _ h)
  | panic e => exact .panic e
  | never => exact .never
  | left hs h => exact .left hs h
  | right hs h => exact .right hs h

/-- Two runs that in addition write the same log. -/
def Agree (s : Bool) (R : α → α → Prop) (l l' : LoggedOf ε α) : Prop := ∀ log, Same s (fun x y => x.2 = y.2 ∧ R x.1 y.1) (l log) (l' log)

theorem Agree.bind {R : α → α → Prop} {S : β → β → Prop} {l l' : LoggedOf ε α} {f f' : α → LoggedOf ε β} (h : Agree s R l l')
    (hf : ∀ a b, R a b → Agree s S (f a) (f' b)) : Agree s S (l >>= f) (l' >>= f') := by
  intro log
  refine Same.bind (h log) ?_
  rintro ⟨a, l⟩ ⟨b, l'⟩ ⟨h1, h2⟩
  cases h1
  exact hf a b h2 l

theorem Agree.pure {R : α → α → Prop} {a b : α} (h : R a b) : Agree (ε := ε) s R (pure a) (pure b) := fun _ => .ret ⟨rfl, h⟩

theorem Agree.quiet {R : α → α → Prop} {m m' : Res α} (h : Same s R m m') : Agree (ε := ε) s R (quiet m) (quiet m') :=
  fun _ => .bind h fun _ _ h => .ret ⟨rfl, h⟩

theorem Agree.mono {R S : α → α → Prop} {l l' : LoggedOf ε α} (h : Agree s R l l') (hs : ∀ a b, R a b → S a b) : Agree s S l l' :=
  fun log => (h log).mono fun _ _ h => ⟨h.1, hs _ _ h.2⟩

theorem Agree.note (c : LCtx ε) {as bs : List Access} (h : as.flatMap c.obs = bs.flatMap c.obs) {R : α → α → Prop} {f f' : Unit → LoggedOf ε α}
    (hf : Agree s R (f ()) (f' ())) : Agree s R (Source.note c as >>= f) (Source.note c bs >>= f') := by
  intro log
  have := hf (log ++ as.flatMap c.obs)
  rw [h] at this
  show Same s _ (f () (log ++ as.flatMap c.obs)) (f' () (log ++ bs.flatMap c.obs))
  rw [h]
  exact this

theorem Agree.forLoop {R : α → α → Prop} {f f' : Nat → α → LoggedOf ε α} (h : ∀ k a b, R a b → Agree s R (f k a) (f' k b)) (n i : Nat) {a b : α}
    (hab : R a b) : Agree s R (Model.Log.forLoop i n f a) (Model.Log.forLoop i n f' b) := by
  induction n generalizing i a b with
  | zero => exact .pure hab
  | succ n ih =>
    intro log
    unfold Model.Log.forLoop Rust.forLoop
    refine Same.bind (h i a b hab log) ?_
    rintro ⟨x, l⟩ ⟨y, l'⟩ ⟨h1, h2⟩
    cases h1
    exact ih (i + 1) h2 l

theorem Same.loopN {σ β' : Type} {P : σ → σ → Prop} {Q : β' → β' → Prop} {f f' : σ → Res (σ ⊕ β')}
    (h : ∀ a b, P a b → Same s (fun x y => (∃ a b, x = .inl a ∧ y = .inl b ∧ P a b) ∨ ∃ a b, x = .inr a ∧ y = .inr b ∧ Q a b) (f a) (f' b))
    (n : Nat) {a b : σ} (hab : P a b) : Same s Q (Rust.loopN f n a) (Rust.loopN f' n b) := by
  induction n generalizing a b with
  | zero => exact .never
  | succ n ih =>
    rw [Rust.loopN, Rust.loopN]
    refine .bind (h a b hab) ?_
    rintro x y (⟨a, b, rfl, rfl, hp⟩ | ⟨a, b, rfl, rfl, hq⟩)
    · exact ih hp
    · exact .ret hq

theorem loopN_le {σ β' : Type} (f : σ → Res (σ ⊕ β')) (n : Nat) (a : σ) (r : Except Panic β') (h : Rust.loopN f n a = (some r : Option _)) :
    Rust.loopN f (n + 1) a = (some r : Option _) := by
  induction n generalizing a with
  | zero => cases h
  | succ n ih =>
    rw [Rust.loopN] at h
    rw [Rust.loopN]
    rcases Rust.bind_some h with ⟨e, he, rfl⟩ | ⟨x, hx, h⟩
    · rw [he]; rfl
    · rw [hx, pure_bind]
      match x with
      | .inl s' => exact ih s' h
      | .inr b => exact h

theorem loopN_mono {σ β' : Type} (f : σ → Res (σ ⊕ β')) {m n : Nat} (hmn : m ≤ n) (a : σ) (r : Except Panic β')
    (h : Rust.loopN f m a = (some r : Option _)) : Rust.loopN f n a = (some r : Option _) := by
  induction hmn with
  | refl => exact h
  | step _ ih => exact loopN_le f _ a r ih

theorem Same.loop {σ β' : Type} {P : σ → σ → Prop} {Q : β' → β' → Prop} {f f' : σ → Res (σ ⊕ β')}
    (h : ∀ a b, P a b → Same s (fun x y => (∃ a b, x = .inl a ∧ y = .inl b ∧ P a b) ∨ ∃ a b, x = .inr a ∧ y = .inr b ∧ Q a b) (f a) (f' b))
    {a b : σ} (hab : P a b) : Same s Q (Rust.loop f a) (Rust.loop f' b) := by
  match hl : (Rust.loop f a : Option (Except Panic β')), hr : (Rust.loop f' b : Option (Except Panic β')) with
  | none, none => exact .never
  | some r, some r' =>
    obtain ⟨m, hm⟩ := Rust.loopN_of_loop f _ _ hl
    obtain ⟨n, hn⟩ := Rust.loopN_of_loop f' _ _ hr
    have := Same.loopN h (max m n) hab
    rw [loopN_mono f (Nat.le_max_left m n) _ _ hm, loopN_mono f' (Nat.le_max_right m n) _ _ hn] at this
    exact this
  | none, some r =>
    obtain ⟨n, hn⟩ := Rust.loopN_of_loop f' _ _ hr
    have := Same.loopN h n hab
    rw [hn] at this
    match hx : (Rust.loopN f n a : Option (Except Panic β')) with
    | some r' => rw [Rust.loop_of_loopN f n a r' hx] at hl; cases hl
    | none =>
      have hx' : Rust.loopN f n a = (none : Option (Except Panic β')) := hx
      rw [hx'] at this
      generalize ht : (some r : Option (Except Panic β')) = t at this
      cases this with
      | never => cases ht
      | left hs h => exact .left hs h
      | right hs h => exact .right hs h
  | some r, none =>
    obtain ⟨n, hn⟩ := Rust.loopN_of_loop f _ _ hl
    have := Same.loopN h n hab
    rw [hn] at this
    match hx : (Rust.loopN f' n b : Option (Except Panic β')) with
    | some r' => rw [Rust.loop_of_loopN f' n b r' hx] at hr; cases hr
    | none =>
      have hx' : Rust.loopN f' n b = (none : Option (Except Panic β')) := hx
      rw [hx'] at this
      generalize ht : (some r : Option (Except Panic β')) = t at this
      cases this with
      | never => cases ht
      | left hs h => exact .left hs h
      | right hs h => exact .right hs h

theorem Agree.loop {σ β' : Type} {P : σ → σ → Prop} {Q : β' → β' → Prop} {f f' : σ → LoggedOf ε (σ ⊕ β')}
    (h : ∀ a b, P a b → Agree s (fun x y => (∃ a b, x = .inl a ∧ y = .inl b ∧ P a b) ∨ ∃ a b, x = .inr a ∧ y = .inr b ∧ Q a b) (f a) (f' b))
    {a b : σ} (hab : P a b) : Agree s Q (Model.Log.loop f a) (Model.Log.loop f' b) := by
  intro log
  refine Same.loop (P := fun x y => x.2 = y.2 ∧ P x.1 y.1) ?_ ⟨rfl, hab⟩
  rintro ⟨a, l⟩ ⟨b, l'⟩ ⟨h1, h2⟩
  cases h1
  refine .bind (h a b h2 l) ?_
  rintro ⟨x, k⟩ ⟨y, k'⟩ ⟨h3, (⟨a, b, h4, h5, hp⟩ | ⟨a, b, h4, h5, hq⟩)⟩
  · cases h3; cases h4; cases h5
    exact .ret (.inl ⟨_, _, rfl, rfl, rfl, hp⟩)
  · cases h3; cases h4; cases h5
    exact .ret (.inr ⟨_, _, rfl, rfl, rfl, hq⟩)

/-! ## Shapes -/

/-- The values have the same shape. -/
def Like (v w : Val) : Prop := shape v = shape w

theorem Like.refl (v : Val) : Like v v := rfl

theorem bytes_like {xs ys : List U8} : Like (.bytes xs) (.bytes ys) ↔ xs.length = ys.length := by
  unfold Like
  rw [shape, shape, Val.bytes.injEq, List.replicate_inj]
  simp

theorem words32_like {xs ys : Array U32} : Like (.words32 xs) (.words32 ys) ↔ xs.size = ys.size := by
  unfold Like
  rw [shape, shape, Val.words32.injEq]
  constructor
  · intro h; simpa using congrArg Array.size h
  · intro h; rw [h]

theorem words64_like {xs ys : Array U64} : Like (.words64 xs) (.words64 ys) ↔ xs.size = ys.size := by
  unfold Like
  rw [shape, shape, Val.words64.injEq]
  constructor
  · intro h; simpa using congrArg Array.size h
  · intro h; rw [h]

theorem pair_like {a b c d : Val} : Like (.pair a b) (.pair c d) ↔ Like a c ∧ Like b d := by
  unfold Like
  rw [shape, shape, Val.pair.injEq]

/-- The cases of two values of the same shape. -/
inductive Alike : Val → Val → Prop
  | lit (n) : Alike (.lit n) (.lit n)
  | bool (a b) : Alike (.bool a) (.bool b)
  | u8 (a b) : Alike (.u8 a) (.u8 b)
  | u32 (a b) : Alike (.u32 a) (.u32 b)
  | u64 (a b) : Alike (.u64 a) (.u64 b)
  | i64 (a b) : Alike (.i64 a) (.i64 b)
  | usize (a b) : Alike (.usize a) (.usize b)
  | bytes {a b} (h : a.length = b.length) : Alike (.bytes a) (.bytes b)
  | words32 {a b} (h : a.size = b.size) : Alike (.words32 a) (.words32 b)
  | words64 {a b} (h : a.size = b.size) : Alike (.words64 a) (.words64 b)
  | pair {a b c d} (h : Like a c) (h' : Like b d) : Alike (.pair a b) (.pair c d)
  | struct {a b} (h : shapes a = shapes b) : Alike (.struct a) (.struct b)

theorem Like.cases {v w : Val} (h : Like v w) : Alike v w := by
  cases v <;> cases w <;>
    first
    | exact .bool _ _
    | exact .u8 _ _
    | exact .u32 _ _
    | exact .u64 _ _
    | exact .i64 _ _
    | exact .usize _ _
    | exact .bytes (bytes_like.1 h)
    | exact .words32 (words32_like.1 h)
    | exact .words64 (words64_like.1 h)
    | exact .pair (pair_like.1 h).1 (pair_like.1 h).2
    | (unfold Like at h
       rw [shape, shape] at h
       first
       | (injection h with h; subst h; exact .lit _)
       | (injection h with h; exact .struct h)
       | cases h)

/-! ## Operations -/

theorem u8_like (a b) : Like (.u8 a) (.u8 b) := by unfold Like; rw [shape, shape]
theorem u32_like (a b) : Like (.u32 a) (.u32 b) := by unfold Like; rw [shape, shape]
theorem u64_like (a b) : Like (.u64 a) (.u64 b) := by unfold Like; rw [shape, shape]
theorem i64_like (a b) : Like (.i64 a) (.i64 b) := by unfold Like; rw [shape, shape]
theorem usize_like (a b) : Like (.usize a) (.usize b) := by unfold Like; rw [shape, shape]
theorem bool_like (a b) : Like (.bool a) (.bool b) := by unfold Like; rw [shape, shape]

/-- The same, up to the contents. -/
abbrev SameVal (s : Bool) : Res Val → Res Val → Prop := Same s Like

theorem asInt_like (t : IntTy) {v w : Val} (h : Like v w) : SameVal s (asInt t v) (asInt t w) := by
  have hs : ∀ (b : Prop) [Decidable b] (x y : Val), Like x y → SameVal s (if b then pure x else stuck) (if b then pure y else stuck) := by
    intro b _ x y hxy
    split
    · exact .ret hxy
    · exact .panic _
  cases h.cases with
  | lit n => exact .refl Like.refl _
  | u8 a b => exact hs _ _ _ (u8_like _ _)
  | u32 a b => exact hs _ _ _ (u32_like _ _)
  | u64 a b => exact hs _ _ _ (u64_like _ _)
  | i64 a b => exact hs _ _ _ (i64_like _ _)
  | usize a b => exact hs _ _ _ (usize_like _ _)
  | bool _ _ | bytes _ | words32 _ | words64 _ | pair _ _ | struct _ => exact .panic _

theorem asTy_like (t : Option Ty) {v w : Val} (h : Like v w) : SameVal s (asTy t v) (asTy t w) := by
  unfold asTy
  split
  · exact asInt_like _ h
  · exact .ret h

theorem likeOld_like {old old' v w : Val} (ho : Like old old') (h : Like v w) : SameVal s (likeOld old v) (likeOld old' w) := by
  cases h.cases with
  | lit n =>
    cases ho.cases with
    | u8 | u32 | u64 | i64 | usize => exact .refl Like.refl _
    | lit | bool | bytes | words32 | words64 | pair | struct => exact .ret h
  | bool | u8 | u32 | u64 | i64 | usize | bytes | words32 | words64 | pair | struct => cases ho.cases <;> exact .ret h

theorem unsignedOp_like {w : Nat} (fit : Int → Res (BitVec w)) (mk : BitVec w → Val) (hm : ∀ x y, Like (mk x) (mk y)) (op : BinOp)
    (h : op.total = true) (a b a' b' : BitVec w) : SameVal s (unsignedOp fit mk op a b) (unsignedOp fit mk op a' b') := by
  cases op <;> first | exact .ret (hm _ _) | exact .ret (bool_like _ _) | cases h

theorem signedOp_like {w : Nat} (p : Profile) (mk : BitVec w → Val) (hm : ∀ x y, Like (mk x) (mk y)) (op : BinOp)
    (h : op.total = true) (a b a' b' : BitVec w) : SameVal s (signedOp p mk op a b) (signedOp p mk op a' b') := by
  cases op <;> first | exact .ret (hm _ _) | exact .ret (bool_like _ _) | cases h

theorem sameOp_like (u : Nat) (p : Profile) (op : BinOp) (h : op.total = true) {a b a' b' : Val} (ha : Like a a') (hb : Like b b') :
    SameVal s (sameOp u p op a b) (sameOp u p op a' b') := by
  cases ha.cases <;> cases hb.cases <;>
    first
    | exact .panic _
    | exact unsignedOp_like _ _ u8_like op h _ _ _ _
    | exact unsignedOp_like _ _ u32_like op h _ _ _ _
    | exact unsignedOp_like _ _ u64_like op h _ _ _ _
    | exact unsignedOp_like _ _ usize_like op h _ _ _ _
    | exact signedOp_like _ _ i64_like op h _ _ _ _

theorem shiftBy_same {w : Nat} (p : Profile) (op : BinOp) (a a' : BitVec w) (k : Nat) :
    Same s (fun _ _ => True) (shiftBy p op a k) (shiftBy p op a' k) := by
  unfold shiftBy
  split
  · exact .panic _
  · cases op <;> first | exact .ret trivial | exact .panic _

theorem shiftOp_like (p : Profile) (op : BinOp) {a a' : Val} (b : Val) (ha : Like a a') : SameVal s (shiftOp p op a b) (shiftOp p op a' b) := by
  cases ha.cases with
  | u32 x y =>
    refine .bind (.refl (R := Eq) (fun _ => rfl) _) fun k k' hk => ?_
    subst hk
    exact .bind (shiftBy_same p op x y k) fun _ _ _ => .ret (u32_like _ _)
  | u64 x y =>
    refine .bind (.refl (R := Eq) (fun _ => rfl) _) fun k k' hk => ?_
    subst hk
    exact .bind (shiftBy_same p op x y k) fun _ _ _ => .ret (u64_like _ _)
  | lit | bool | u8 | i64 | usize | bytes | words32 | words64 | pair | struct => exact .panic _

/-- The operators other than the shifts. -/
def plainOp (u : Nat) (p : Profile) (op : BinOp) (a b : Val) : Res Val :=
  match a, b with
  | .lit m, .lit n =>
    match exact op m n with
    | some e => if openOp m n e then pure (.lit e) else stuck
    | none => stuck
  | .lit m, b => do sameOp u p op (← likeOld b (.lit m)) b
  | a, .lit n => do sameOp u p op a (← likeOld a (.lit n))
  | a, b => sameOp u p op a b

theorem binOp_plain (u : Nat) (p : Profile) (op : BinOp) (h : op.total = true) (a b : Val) : binOp u p op a b = plainOp u p op a b := by
  cases op <;> first | (cases h; done) | (cases a <;> cases b <;> rfl)

theorem binOp_like (u : Nat) (p : Profile) (op : BinOp) (h : op.total = true) {a b a' b' : Val} (ha : Like a a') (hb : Like b b') :
    SameVal s (binOp u p op a b) (binOp u p op a' b') := by
  rw [binOp_plain u p op h, binOp_plain u p op h]
  cases ha.cases with
  | lit m =>
    cases hb.cases with
    | lit n => exact .refl Like.refl _
    | bool | u8 | u32 | u64 | i64 | usize | bytes | words32 | words64 | pair | struct =>
      exact .bind (likeOld_like hb (.refl _)) fun x y hxy => sameOp_like u p op h hxy hb
  | bool | u8 | u32 | u64 | i64 | usize | bytes | words32 | words64 | pair | struct =>
    cases hb.cases with
    | lit n => exact .bind (likeOld_like ha (.refl _)) fun x y hxy => sameOp_like u p op h ha hxy
    | bool | u8 | u32 | u64 | i64 | usize | bytes | words32 | words64 | pair | struct => exact sameOp_like u p op h ha hb

theorem castTo_like (u : Nat) (t : IntTy) (m n : Int) : Like (castTo u t m) (castTo u t n) := by
  cases t
  · exact u8_like _ _
  · exact u32_like _ _
  · exact u64_like _ _
  · exact i64_like _ _
  · exact usize_like _ _

theorem num_same {v w : Val} (h : Like v w) : Same s (fun _ _ => True) v.num w.num := by
  cases h.cases <;> first | exact .refl (fun _ => trivial) _ | exact .ret trivial

theorem sget_same {γ : Type} {xs ys : List γ} (h : xs.length = ys.length) (i : Nat) : Same s (fun _ _ => True) (sget xs i) (sget ys i) := by
  unfold sget
  by_cases hi : i < xs.length
  · rw [List.getElem?_eq_getElem hi, List.getElem?_eq_getElem (h ▸ hi)]
    exact .ret trivial
  · rw [List.getElem?_eq_none (by omega), List.getElem?_eq_none (by omega)]
    exact .panic _

theorem vget_same {γ : Type} {xs ys : Array γ} (h : xs.size = ys.size) (i : Nat) : Same s (fun _ _ => True) (vget xs i) (vget ys i) := by
  unfold vget
  by_cases hi : i < xs.size
  · rw [Array.getElem?_eq_getElem hi, Array.getElem?_eq_getElem (h ▸ hi)]
    exact .ret trivial
  · rw [Array.getElem?_eq_none (by omega), Array.getElem?_eq_none (by omega)]
    exact .panic _

theorem vset_same {γ : Type} {xs ys : Array γ} (h : xs.size = ys.size) (i : Nat) (x y : γ) :
    Same s (fun a b => a.size = b.size) (vset xs i x) (vset ys i y) := by
  unfold vset
  by_cases hi : i < xs.size
  · rw [dif_pos hi, dif_pos (h ▸ hi)]
    exact .ret (by simpa using h)
  · rw [dif_neg hi, dif_neg (h ▸ hi)]
    exact .panic _

theorem slice_same {γ : Type} {xs ys : List γ} (h : xs.length = ys.length) (lo hi : Nat) :
    Same s (fun a b => a.length = b.length) (slice xs lo hi) (slice ys lo hi) := by
  unfold slice
  rw [h]
  split
  · exact .ret (by simp [h])
  · exact .panic _

theorem splitRight_same {γ : Type} {xs ys : Array γ} (h : xs.size = ys.size) (i : Nat) :
    Same s (fun a b => a.size = b.size) (splitRight xs i) (splitRight ys i) := by
  unfold splitRight
  rw [h]
  split
  · exact .ret (by simp [h])
  · exact .panic _

theorem item_like {v w : Val} (h : Like v w) (i : Nat) : SameVal s (item v i) (item w i) := by
  cases h.cases with
  | bytes hl => exact .bind (sget_same hl i) fun _ _ _ => .ret (u8_like _ _)
  | words32 hl => exact .bind (vget_same hl i) fun _ _ _ => .ret (u32_like _ _)
  | words64 hl => exact .bind (vget_same hl i) fun _ _ _ => .ret (u64_like _ _)
  | lit | bool | u8 | u32 | u64 | i64 | usize | pair | struct => exact .panic _

theorem setItem_like {v w x y : Val} (h : Like v w) (i : Nat) (hx : Like x y) : SameVal s (setItem v i x) (setItem w i y) := by
  cases h.cases with
  | bytes hl =>
    refine .bind (asInt_like _ hx) fun a b hab => ?_
    cases hab.cases with
    | u8 a b =>
      dsimp only
      rw [hl]
      split
      · exact .ret (bytes_like.2 (by simpa using hl))
      · exact .panic _
    | lit | bool | u32 | u64 | i64 | usize | bytes | words32 | words64 | pair | struct => exact .panic _
  | words32 hl =>
    refine .bind (asInt_like _ hx) fun a b hab => ?_
    cases hab.cases with
    | u32 a b => exact .bind (vset_same hl i a b) fun _ _ h => .ret (words32_like.2 h)
    | lit | bool | u8 | u64 | i64 | usize | bytes | words32 | words64 | pair | struct => exact .panic _
  | words64 hl =>
    refine .bind (asInt_like _ hx) fun a b hab => ?_
    cases hab.cases with
    | u64 a b => exact .bind (vset_same hl i a b) fun _ _ h => .ret (words64_like.2 h)
    | lit | bool | u8 | u32 | i64 | usize | bytes | words32 | words64 | pair | struct => exact .panic _
  | lit | bool | u8 | u32 | u64 | i64 | usize | pair | struct => exact .panic _

theorem part_like {v w : Val} (h : Like v w) (lo hi : Nat) : SameVal s (part v lo hi) (part w lo hi) := by
  cases h.cases with
  | bytes hl => exact .bind (slice_same hl lo hi) fun _ _ h => .ret (bytes_like.2 h)
  | words32 hl => exact .bind (slice_same (by simpa using hl) lo hi) fun _ _ h => .ret (words32_like.2 (by simpa using h))
  | lit | bool | u8 | u32 | u64 | i64 | usize | words64 | pair | struct => exact .panic _

theorem overwrite_like {v w x y : Val} (h : Like v w) (hi : Nat) (hs : Like x y) : SameVal s (overwrite v hi x) (overwrite w hi y) := by
  cases h.cases with
  | bytes hl =>
    cases hs.cases with
    | bytes h' =>
      unfold overwrite
      dsimp only
      rw [h']
      split
      · exact .ret (bytes_like.2 (by simp [hl, h']))
      · exact .panic _
    | lit | bool | u8 | u32 | u64 | i64 | usize | words32 | words64 | pair | struct => exact .panic _
  | words32 hl =>
    cases hs.cases with
    | words32 h' =>
      unfold overwrite
      dsimp only
      rw [h']
      split
      · exact .ret (words32_like.2 (by simp [hl, h']))
      · exact .panic _
    | lit | bool | u8 | u32 | u64 | i64 | usize | bytes | words64 | pair | struct => exact .panic _
  | lit | bool | u8 | u32 | u64 | i64 | usize | words64 | pair | struct => cases hs.cases <;> exact .panic _

theorem reserve_same (u size n : Nat) : Same s (fun _ _ => True) (reserve u size n) (reserve u size n) := .refl (fun _ => trivial) _

theorem repeated_like (u : Nat) (t : Option Ty) {x y : Val} (n : Nat) (h : Like x y) : SameVal s (repeated u t x n) (repeated u t y n) := by
  unfold repeated
  split
  · refine .bind (asInt_like _ h) fun a b hab => ?_
    cases hab.cases with
    | u8 a b => exact .bind (reserve_same _ _ _) fun _ _ _ => .ret (bytes_like.2 (by simp))
    | lit | bool | u32 | u64 | i64 | usize | bytes | words32 | words64 | pair | struct => exact .panic _
  · refine .bind (asInt_like _ h) fun a b hab => ?_
    cases hab.cases with
    | u64 a b => exact .bind (reserve_same _ _ _) fun _ _ _ => .ret (words64_like.2 (by simp))
    | lit | bool | u8 | u32 | i64 | usize | bytes | words32 | words64 | pair | struct => exact .panic _
  · refine .bind (asInt_like _ h) fun a b hab => ?_
    cases hab.cases with
    | u32 a b => exact .ret (words32_like.2 (by simp))
    | lit | bool | u8 | u64 | i64 | usize | bytes | words32 | words64 | pair | struct => exact .panic _
  · exact .panic _

theorem mapM_same {γ : Type} {f : Val → Res γ} (hf : ∀ v w, Like v w → Same s (fun _ _ => True) (f v) (f w)) {vs ws : List Val}
    (h : List.Forall₂ Like vs ws) : Same s (fun a b => a.length = b.length) (vs.mapM f) (ws.mapM f) := by
  induction h with
  | nil => exact .ret rfl
  | cons h _ ih =>
    rw [List.mapM_cons, List.mapM_cons]
    exact .bind (hf _ _ h) fun _ _ _ => .bind ih fun _ _ h => .ret (by simpa using h)

theorem listed_like (t : Option Ty) {vs ws : List Val} (h : List.Forall₂ Like vs ws) : SameVal s (listed t vs) (listed t ws) := by
  unfold listed
  split
  · refine .bind (mapM_same (fun v w hvw => ?_) h) fun _ _ h => .ret (words64_like.2 (by simpa using h))
    refine .bind (asInt_like _ hvw) fun a b hab => ?_
    cases hab.cases with
    | u64 a b => exact .ret trivial
    | lit | bool | u8 | u32 | i64 | usize | bytes | words32 | words64 | pair | struct => exact .panic _
  · refine .bind (mapM_same (fun v w hvw => ?_) h) fun _ _ h => .ret (words32_like.2 (by simpa using h))
    refine .bind (asInt_like _ hvw) fun a b hab => ?_
    cases hab.cases with
    | u32 a b => exact .ret trivial
    | lit | bool | u8 | u64 | i64 | usize | bytes | words32 | words64 | pair | struct => exact .panic _
  · cases h with
    | nil => exact .refl Like.refl _
    | cons _ _ => exact .panic _
  · exact .panic _

/-! ## Fields -/

theorem shapes_get (f : String) {fs gs : List (String × Val)} (h : shapes fs = shapes gs) : SameVal s (Env.get f fs) (Env.get f gs) := by
  induction fs generalizing gs with
  | nil =>
    cases gs with
    | nil => exact .panic _
    | cons g gs => obtain ⟨x, v⟩ := g; rw [shapes, shapes] at h; cases h
  | cons g fs ih =>
    obtain ⟨x, v⟩ := g
    cases gs with
    | nil => rw [shapes, shapes] at h; cases h
    | cons g gs =>
      obtain ⟨y, w⟩ := g
      rw [shapes, shapes] at h
      obtain ⟨h1, h2⟩ := List.cons.inj h
      obtain ⟨rfl, hvw⟩ := Prod.mk.inj h1
      unfold Env.get
      split
      · exact .ret hvw
      · exact ih h2

theorem shapes_set (f : String) {v w : Val} (hv : Like v w) {fs gs : List (String × Val)} (h : shapes fs = shapes gs) :
    Same s (fun a b => shapes a = shapes b) (Env.set f v fs) (Env.set f w gs) := by
  induction fs generalizing gs with
  | nil =>
    cases gs with
    | nil => exact .panic _
    | cons g gs => obtain ⟨x, v⟩ := g; rw [shapes, shapes] at h; cases h
  | cons g fs ih =>
    obtain ⟨x, v'⟩ := g
    cases gs with
    | nil => rw [shapes, shapes] at h; cases h
    | cons g gs =>
      obtain ⟨y, w'⟩ := g
      rw [shapes, shapes] at h
      obtain ⟨h1, h2⟩ := List.cons.inj h
      obtain ⟨rfl, hvw⟩ := Prod.mk.inj h1
      unfold Env.set
      split
      · exact .ret (by rw [shapes, shapes, h2, show shape v = shape w from hv])
      · exact .bind (ih h2) fun _ _ h => .ret (by rw [shapes, shapes, h, hvw])

theorem getField_like (f : String) {v w : Val} (h : Like v w) : SameVal s (getField f v) (getField f w) := by
  cases h.cases with
  | struct hl => exact shapes_get f hl
  | lit | bool | u8 | u32 | u64 | i64 | usize | bytes | words32 | words64 | pair => exact .panic _

theorem setField_like (f : String) {x y v w : Val} (hx : Like x y) (h : Like v w) : SameVal s (setField f x v) (setField f y w) := by
  cases h.cases with
  | struct hl => exact .bind (shapes_set f hx hl) fun _ _ h => .ret (by unfold Like; rw [shape, shape, h])
  | lit | bool | u8 | u32 | u64 | i64 | usize | bytes | words32 | words64 | pair => exact .panic _

theorem readSteps_like (steps : List Step) {v w : Val} (h : Like v w) : SameVal s (readSteps steps v) (readSteps steps w) := by
  induction steps generalizing v w with
  | nil => exact .ret h
  | cons s steps ih =>
    cases s with
    | index i => exact .bind (item_like h i) fun _ _ h => ih h
    | field f => exact .bind (getField_like f h) fun _ _ h => ih h

theorem writeSteps_like {x y : Val} (hx : Like x y) (steps : List Step) {v w : Val} (h : Like v w) :
    SameVal s (writeSteps x steps v) (writeSteps y steps w) := by
  induction steps generalizing v w with
  | nil => exact likeOld_like h hx
  | cons s steps ih =>
    cases s with
    | index i =>
      unfold writeSteps
      split
      · exact setItem_like h i hx
      · exact .panic _
    | field f => exact .bind (getField_like f h) fun _ _ h' => .bind (ih h') fun _ _ h'' => setField_like f h'' h

/-! ## Methods -/

theorem method_nil_like (m : String) (hm : m = "clone" ∨ m = "to_vec") {v w : Val} (h : Like v w) {vs ws : List Val} (ha : List.Forall₂ Like vs ws) :
    SameVal s (applyMethod m v vs) (applyMethod m w ws) := by
  cases ha with
  | nil => rcases hm with rfl | rfl <;> exact .ret h
  | cons _ _ => rcases hm with rfl | rfl <;> cases h.cases <;> exact .panic _

theorem toLe_like {v w : Val} (h : Like v w) {vs ws : List Val} (ha : List.Forall₂ Like vs ws) :
    SameVal s (applyMethod "to_le_bytes" v vs) (applyMethod "to_le_bytes" w ws) := by
  cases ha with
  | nil =>
    cases h.cases with
    | u32 a b => exact .ret (bytes_like.2 (by simp [toLeBytes32]))
    | u64 a b => exact .ret (bytes_like.2 (by simp [toLeBytes64]))
    | lit | bool | u8 | i64 | usize | bytes | words32 | words64 | pair | struct => exact .panic _
  | cons _ _ => cases h.cases <;> exact .panic _

theorem wrapping_like (m : String) (hm : m = "wrapping_add" ∨ m = "wrapping_sub") {v w : Val} (h : Like v w) {vs ws : List Val}
    (ha : List.Forall₂ Like vs ws) : SameVal s (applyMethod m v vs) (applyMethod m w ws) := by
  cases ha with
  | nil => rcases hm with rfl | rfl <;> cases h.cases <;> exact .panic _
  | cons hx ha =>
    cases ha with
    | cons _ _ => rcases hm with rfl | rfl <;> cases h.cases <;> exact .panic _
    | nil =>
      rcases hm with rfl | rfl <;> cases h.cases <;>
        first
        | exact .panic _
        | (refine .bind (asInt_like _ hx) fun a b hab => ?_
           cases hab.cases <;> first | exact .panic _ | exact .ret (u32_like _ _) | exact .ret (u64_like _ _) | exact .ret (i64_like _ _))

theorem method_like {m : String} (hm : keepsShape m = true) {v w : Val} (h : Like v w) {vs ws : List Val}
    (ha : List.Forall₂ Like vs ws) : SameVal s (applyMethod m v vs) (applyMethod m w ws) := by
  simp only [keepsShape, Bool.or_eq_true, beq_iff_eq] at hm
  rcases hm with (((rfl | rfl) | rfl) | rfl) | rfl
  · exact method_nil_like _ (.inl rfl) h ha
  · exact method_nil_like _ (.inr rfl) h ha
  · exact toLe_like h ha
  · exact wrapping_like _ (.inl rfl) h ha
  · exact wrapping_like _ (.inr rfl) h ha

theorem len_same {v w : Val} (h : Like v w) {vs ws : List Val} (ha : List.Forall₂ Like vs ws) :
    Same s Eq (applyMethod "len" v vs) (applyMethod "len" w ws) := by
  cases ha with
  | nil =>
    cases h.cases with
    | bytes hl => exact .ret (by rw [hl])
    | lit | bool | u8 | u32 | u64 | i64 | usize | words32 | words64 | pair | struct => exact .panic _
  | cons _ _ => cases h.cases <;> exact .panic _

theorem splitAt_like {v w : Val} (h : Like v w) (vs : List Val) : SameVal s (applyMethod "split_at" v vs) (applyMethod "split_at" w vs) := by
  match vs with
  | [] => cases h.cases <;> exact .panic _
  | _ :: _ :: _ => cases h.cases <;> exact .panic _
  | [i] =>
    cases h.cases with
    | words64 hl =>
      refine .bind (.refl (R := Eq) (fun _ => rfl) (position i)) fun k k' hk => ?_
      subst hk
      exact .bind (splitRight_same hl k) fun a b hab => .ret (pair_like.2 ⟨words64_like.2 (by simp [hl]), words64_like.2 hab⟩)
    | lit | bool | u8 | u32 | u64 | i64 | usize | bytes | words32 | pair | struct => exact .panic _

theorem methodNotes_like (e : Expr) (m : String) {v w : Val} {vs ws : List Val} (h : m = "split_at" → vs = ws) (ha : List.Forall₂ Like vs ws) (hr : Like v w) :
    methodNotes e m vs v = methodNotes e m ws w := by
  by_cases hs : m = "split_at"
  · cases h hs
    subst hs
    match vs with
    | [.usize i] =>
      cases hr.cases with
      | pair h1 h2 =>
        cases h2.cases with
        | words64 hl => simp only [methodNotes, hl]
        | lit | bool | u8 | u32 | u64 | i64 | usize | bytes | words32 | pair | struct => rfl
      | lit | bool | u8 | u32 | u64 | i64 | usize | bytes | words32 | words64 | struct => rfl
    | [] => rfl
    | a :: _ :: _ => cases a <;> rfl
    | [.lit _] | [.bool _] | [.u8 _] | [.u32 _] | [.u64 _] | [.i64 _] | [.bytes _] | [.words32 _] | [.words64 _] | [.pair _ _] | [.struct _] => rfl
  · by_cases ht : m = "to_vec"
    · subst ht
      cases ha with
      | nil =>
        cases hr.cases with
        | words64 hl => simp only [methodNotes, hl]
        | bytes hl => simp only [methodNotes, hl]
        | lit | bool | u8 | u32 | u64 | i64 | usize | words32 | pair | struct => rfl
      | cons _ _ => rfl
    · by_cases hk : m = "clone"
      · subst hk
        cases ha with
        | nil =>
          cases hr.cases with
          | bytes hl => simp only [methodNotes, hl]
          | lit | bool | u8 | u32 | u64 | i64 | usize | words32 | words64 | pair | struct => rfl
        | cons _ _ => rfl
      · have : ∀ vs v, methodNotes e m vs v = [] := by
          intro vs v
          unfold methodNotes
          split
          · exact (hs rfl).elim
          · exact (ht rfl).elim
          · exact (ht rfl).elim
          · exact (hk rfl).elim
          · rfl
        rw [this, this]

theorem mutator_like (u : Nat) {m : String} (hm : keepsShapeMut m = true) {v w : Val} (h : Like v w) {vs ws : List Val}
    (ha : List.Forall₂ Like vs ws) : SameVal s (applyMutator u m v vs) (applyMutator u m w ws) := by
  simp only [keepsShapeMut, Bool.or_eq_true, beq_iff_eq] at hm
  cases ha with
  | nil => rcases hm with rfl | rfl <;> cases h.cases <;> exact .panic _
  | cons hx ha =>
    cases ha with
    | cons _ _ => rcases hm with rfl | rfl <;> cases h.cases <;> first | exact .panic _ | (cases hx.cases <;> exact .panic _)
    | nil =>
      rcases hm with rfl | rfl
      · cases h.cases with
        | bytes hl =>
          cases hx.cases with
          | bytes hl' =>
            show Same s Like (do reserve u 1 _; pure _) (do reserve u 1 _; pure _)
            rw [hl, hl']
            exact .bind (.refl (R := fun _ _ => True) (fun _ => trivial) _) fun _ _ _ => .ret (bytes_like.2 (by simp [hl, hl']))
          | lit | bool | u8 | u32 | u64 | i64 | usize | words32 | words64 | pair | struct => exact .panic _
        | lit | bool | u8 | u32 | u64 | i64 | usize | words32 | words64 | pair | struct => cases hx.cases <;> exact .panic _
      · cases h.cases with
        | bytes hl =>
          refine .bind (asInt_like _ hx) fun a b hab => ?_
          cases hab.cases with
          | u8 a b =>
            dsimp only
            rw [hl]
            exact .bind (.refl (R := fun _ _ => True) (fun _ => trivial) _) fun _ _ _ => .ret (bytes_like.2 (by simp [hl]))
          | lit | bool | u32 | u64 | i64 | usize | bytes | words32 | words64 | pair | struct => exact .panic _
        | lit | bool | u8 | u32 | u64 | i64 | usize | words32 | words64 | pair | struct => exact .panic _

theorem resize_like (u : Nat) {v w : Val} (h : Like v w) (n : Val) {vs ws : List Val} (ha : List.Forall₂ Like vs ws) :
    SameVal s (applyMutator u "resize" v (n :: vs)) (applyMutator u "resize" w (n :: ws)) := by
  cases ha with
  | nil => cases h.cases <;> exact .panic _
  | cons hx ha =>
    cases ha with
    | cons _ _ => cases h.cases <;> exact .panic _
    | nil =>
      cases h.cases with
      | words64 hl =>
        refine .bind (asInt_like _ hx) fun a b hab => ?_
        refine .bind (.refl (R := Eq) (fun _ => rfl) (position n)) fun k k' hk => ?_
        subst hk
        cases hab.cases with
        | u64 a b =>
          exact .bind (.refl (R := fun _ _ => True) (fun _ => trivial) _) fun _ _ _ => .ret (words64_like.2 (by simp [hl]))
        | lit | bool | u8 | u32 | i64 | usize | bytes | words32 | words64 | pair | struct => exact .panic _
      | lit | bool | u8 | u32 | u64 | i64 | usize | bytes | words32 | pair | struct => exact .panic _

/-! ## When both return -/

theorem Same.both (hs : s = false) {R : α → α → Prop} {m m' : Res α} (h : ∀ a b, m = pure a → m' = pure b → R a b) : Same s R m m' := by
  rcases fails_or_returns m with hm | ⟨a, rfl⟩
  · exact .left hs hm
  · rcases fails_or_returns m' with hm | ⟨b, rfl⟩
    · exact .right hs hm
    · exact .ret (h a b rfl rfl)

/-- What `m` returns satisfies `P`. -/
def Gives (P : α → Prop) (m : Res α) : Prop := ∀ a, m = pure a → P a

theorem Gives.ret {P : α → Prop} {a : α} (h : P a) : Gives P (pure a) := fun b hb => by
  cases hb
  exact h

theorem Gives.stuck {P : α → Prop} : Gives P stuck := fun _ h => nomatch h

theorem Gives.panic {P : α → Prop} (e : Panic) : Gives P (throw e) := fun _ h => nomatch h

theorem Gives.bind {P : β → Prop} {m : Res α} {f : α → Res β} (h : ∀ a, m = pure a → Gives P (f a)) : Gives P (m >>= f) := by
  match m with
  | some (.ok a) => exact h a rfl
  | some (.error e) => exact fun b hb => nomatch hb
  | none => exact fun b hb => nomatch hb

theorem unsignedOp_gives {w : Nat} (fit : Int → Res (BitVec w)) (mk : BitVec w → Val) (hm : ∀ x y, Like (mk x) (mk y)) (op : BinOp) (a b : BitVec w) :
    Gives (fun x => Like x (if op = .lt ∨ op = .eq then .bool false else mk 0)) (unsignedOp fit mk op a b) := by
  have hdiv : ∀ op : BinOp, op = .div ∨ op = .rem → Gives (fun x => Like x (if op = .lt ∨ op = .eq then .bool false else mk 0)) (unsignedOp fit mk op a b) := by
    intro op ho
    unfold unsignedOp
    by_cases hb : (b.toNat : Int) = 0
    · rcases ho with rfl | rfl <;> simp only [exact, hb, if_true] <;> exact .stuck
    · rcases ho with rfl | rfl <;> simp only [exact, hb, if_false] <;> exact .bind fun e _ => .ret (hm _ _)
  cases op <;>
    first
    | exact hdiv _ (.inl rfl)
    | exact hdiv _ (.inr rfl)
    | exact .bind fun e _ => .ret (hm _ _)
    | exact .ret (hm _ _)
    | exact .ret (bool_like _ _)
    | exact .stuck

theorem signedOp_gives {w : Nat} (p : Profile) (mk : BitVec w → Val) (hm : ∀ x y, Like (mk x) (mk y)) (op : BinOp) (a b : BitVec w) :
    Gives (fun x => Like x (if op = .lt ∨ op = .eq then .bool false else mk 0)) (signedOp p mk op a b) := by
  have hdiv : ∀ op : BinOp, op = .div ∨ op = .rem → Gives (fun x => Like x (if op = .lt ∨ op = .eq then .bool false else mk 0)) (signedOp p mk op a b) := by
    intro op ho
    unfold signedOp
    by_cases hb : b.toInt = 0
    · rcases ho with rfl | rfl <;> simp only [exact, hb, if_true] <;> exact .stuck
    · rcases ho with rfl | rfl <;> simp only [exact, hb, if_false] <;> exact .bind fun e _ => .ret (hm _ _)
  cases op <;>
    first
    | exact hdiv _ (.inl rfl)
    | exact hdiv _ (.inr rfl)
    | exact .bind fun e _ => .ret (hm _ _)
    | exact .ret (hm _ _)
    | exact .ret (bool_like _ _)
    | exact .stuck

theorem Like.symm {v w : Val} (h : Like v w) : Like w v := Eq.symm h

theorem Like.trans {v w x : Val} (h : Like v w) (h' : Like w x) : Like v x := Eq.trans h h'

theorem Gives.same (hs : s = false) {m m' : Res Val} {x : Val} (h : Gives (Like · x) m) (h' : Gives (Like · x) m') : SameVal s m m' :=
  .both hs fun _ _ ha hb => (h _ ha).trans (h' _ hb).symm

theorem sameOp_lax (hs : s = false) (u : Nat) (p : Profile) (op : BinOp) {a b a' b' : Val} (ha : Like a a') (hb : Like b b') :
    SameVal s (sameOp u p op a b) (sameOp u p op a' b') := by
  cases ha.cases <;> cases hb.cases <;>
    first
    | exact .panic _
    | exact Gives.same hs (unsignedOp_gives _ _ u8_like op _ _) (unsignedOp_gives _ _ u8_like op _ _)
    | exact Gives.same hs (unsignedOp_gives _ _ u32_like op _ _) (unsignedOp_gives _ _ u32_like op _ _)
    | exact Gives.same hs (unsignedOp_gives _ _ u64_like op _ _) (unsignedOp_gives _ _ u64_like op _ _)
    | exact Gives.same hs (unsignedOp_gives _ _ usize_like op _ _) (unsignedOp_gives _ _ usize_like op _ _)
    | exact Gives.same hs (signedOp_gives _ _ i64_like op _ _) (signedOp_gives _ _ i64_like op _ _)

theorem plainOp_lax (hs : s = false) (u : Nat) (p : Profile) (op : BinOp) {a b a' b' : Val} (ha : Like a a') (hb : Like b b') :
    SameVal s (plainOp u p op a b) (plainOp u p op a' b') := by
  cases ha.cases with
  | lit m =>
    cases hb.cases with
    | lit n => exact .refl Like.refl _
    | bool | u8 | u32 | u64 | i64 | usize | bytes | words32 | words64 | pair | struct =>
      exact .bind (likeOld_like hb (.refl _)) fun x y hxy => sameOp_lax hs u p op hxy hb
  | bool | u8 | u32 | u64 | i64 | usize | bytes | words32 | words64 | pair | struct =>
    cases hb.cases with
    | lit n => exact .bind (likeOld_like ha (.refl _)) fun x y hxy => sameOp_lax hs u p op ha hxy
    | bool | u8 | u32 | u64 | i64 | usize | bytes | words32 | words64 | pair | struct => exact sameOp_lax hs u p op ha hb

theorem shiftOp_gives (p : Profile) (op : BinOp) (a b : Val) : Gives (Like · a) (shiftOp p op a b) := by
  cases a with
  | u32 => exact .bind fun _ _ => .bind fun _ _ => .ret (u32_like _ _)
  | u64 => exact .bind fun _ _ => .bind fun _ _ => .ret (u64_like _ _)
  | lit | bool | u8 | i64 | usize | bytes | words32 | words64 | pair | struct => exact .stuck

theorem shiftOp_lax (hs : s = false) (p : Profile) (op : BinOp) {a a' : Val} (b b' : Val) (ha : Like a a') :
    SameVal s (shiftOp p op a b) (shiftOp p op a' b') :=
  .both hs fun _ _ h h' => ((shiftOp_gives p op a b _ h).trans ha).trans (shiftOp_gives p op a' b' _ h').symm

theorem binOp_cases (u : Nat) (p : Profile) (op : BinOp) (a b : Val) :
    binOp u p op a b = if op.isShift then shiftOp p op a b else plainOp u p op a b := by
  cases op <;> rfl

/-- An operator on values of the same shape, where `opOk` allows it. -/
theorem binOp_ok (u : Nat) (p : Profile) (op : BinOp) {l : Label} (h : opOk s op l = true) {a b a' b' : Val} (ha : Like a a') (hb : Like b b')
    (he : l = .pub → b = b') : SameVal s (binOp u p op a b) (binOp u p op a' b') := by
  cases hs : s with
  | false =>
    rw [binOp_cases, binOp_cases]
    split
    · exact shiftOp_lax rfl p op b b' ha
    · exact plainOp_lax rfl u p op ha hb
  | true =>
    subst hs
    simp only [opOk, Bool.not_true, Bool.false_or, Bool.or_eq_true, Bool.and_eq_true, beq_iff_eq] at h
    rcases h with h | ⟨h, hl⟩
    · exact binOp_like u p op h ha hb
    · cases he hl
      rw [binOp_cases, binOp_cases, if_pos h, if_pos h]
      exact shiftOp_like p op b ha

theorem negate_lax (hs : s = false) (p : Profile) {a a' : Val} (ha : Like a a') : SameVal s (negate p a) (negate p a') := by
  cases ha.cases with
  | lit n => exact .refl Like.refl _
  | i64 a b => exact .bind (.lax hs _ _) fun _ _ _ => .ret (i64_like _ _)
  | bool | u8 | u32 | u64 | usize | bytes | words32 | words64 | pair | struct => exact .panic _

theorem item_lax (hs : s = false) {v w : Val} (h : Like v w) (i j : Nat) : SameVal s (item v i) (item w j) := by
  cases h.cases with
  | bytes => exact .bind (.lax hs _ _) fun _ _ _ => .ret (u8_like _ _)
  | words32 => exact .bind (.lax hs _ _) fun _ _ _ => .ret (u32_like _ _)
  | words64 => exact .bind (.lax hs _ _) fun _ _ _ => .ret (u64_like _ _)
  | lit | bool | u8 | u32 | u64 | i64 | usize | pair | struct => exact .panic _

theorem vset_gives {γ : Type} (xs : Array γ) (i : Nat) (x : γ) : Gives (fun a => a.size = xs.size) (vset xs i x) := by
  unfold vset
  split
  · exact .ret (by simp)
  · exact .panic _

theorem setItem_gives (v : Val) (i : Nat) (x : Val) : Gives (Like · v) (setItem v i x) := by
  cases v with
  | bytes xs =>
    refine .bind fun a _ => ?_
    cases a with
    | u8 b =>
      dsimp only
      split
      · exact .ret (bytes_like.2 (by simp))
      · exact .panic _
    | lit | bool | u32 | u64 | i64 | usize | bytes | words32 | words64 | pair | struct => exact .stuck
  | words32 xs =>
    refine .bind fun a _ => ?_
    cases a with
    | u32 b => exact .bind fun a ha => .ret (words32_like.2 (vset_gives xs i b a ha))
    | lit | bool | u8 | u64 | i64 | usize | bytes | words32 | words64 | pair | struct => exact .stuck
  | words64 xs =>
    refine .bind fun a _ => ?_
    cases a with
    | u64 b => exact .bind fun a ha => .ret (words64_like.2 (vset_gives xs i b a ha))
    | lit | bool | u8 | u32 | i64 | usize | bytes | words32 | words64 | pair | struct => exact .stuck
  | lit | bool | u8 | u32 | u64 | i64 | usize | pair | struct => exact .stuck

theorem shapes_set_gives (f : String) {v w : Val} (hv : Like w v) {fs : List (String × Val)} (h : Env.get f fs = pure v) :
    Gives (fun gs => shapes gs = shapes fs) (Env.set f w fs) := by
  induction fs with
  | nil => exact .stuck
  | cons g fs ih =>
    obtain ⟨x, v'⟩ := g
    unfold Env.get at h
    unfold Env.set
    split at h
    · rename_i hx
      cases h
      rw [if_pos hx]
      exact .ret (by rw [shapes, shapes, show shape w = shape v from hv])
    · rename_i hx
      rw [if_neg hx]
      exact .bind fun a ha => .ret (by rw [shapes, shapes, ih h a ha])

theorem setField_gives (f : String) {v w x : Val} (hv : Like w v) (h : getField f x = pure v) : Gives (Like · x) (setField f w x) := by
  cases x with
  | struct fs => exact .bind fun a ha => .ret (by unfold Like; rw [shape, shape, shapes_set_gives f hv h a ha])
  | lit | bool | u8 | u32 | u64 | i64 | usize | bytes | words32 | words64 | pair => exact .stuck

/-- Writing to an element does not change the shape of the whole. -/
theorem writeSteps_gives (x : Val) (steps : List Step) {k : Nat} (hk : steps.getLast? = some (.index k)) (v : Val) :
    Gives (Like · v) (writeSteps x steps v) := by
  induction steps generalizing v with
  | nil => cases hk
  | cons t steps ih =>
    cases t with
    | index i =>
      unfold writeSteps
      split
      · exact setItem_gives v i x
      · exact .stuck
    | field f =>
      have : steps.getLast? = some (.index k) := by
        cases steps with
        | nil => cases hk
        | cons t' steps => simpa [List.getLast?_cons_cons] using hk
      refine .bind fun a ha => .bind fun b hb => ?_
      exact setField_gives f (ih this a b hb) ha

theorem overwrite_gives (v : Val) (hi : Nat) (x a : Val) (ha : part v 0 hi = pure a) : Gives (Like · v) (overwrite v hi x) := by
  cases v with
  | bytes xs =>
    have hle : hi ≤ xs.length := by
      by_contra hn
      have : part (.bytes xs) 0 hi = throw .bounds := by
        show (slice xs 0 hi >>= fun r => pure (Val.bytes r)) = _
        rw [slice, if_neg (by omega)]
        rfl
      rw [this] at ha
      cases ha
    cases x with
    | bytes ys =>
      unfold overwrite
      dsimp only
      split
      · exact .ret (bytes_like.2 (by simp; omega))
      · exact .panic _
    | lit | bool | u8 | u32 | u64 | i64 | usize | words32 | words64 | pair | struct => exact .stuck
  | words32 xs =>
    have hle : hi ≤ xs.size := by
      by_contra hn
      have : part (.words32 xs) 0 hi = throw .bounds := by
        show (slice xs.toList 0 hi >>= fun r => pure (Val.words32 r.toArray)) = _
        rw [slice, if_neg (by simp; omega)]
        rfl
      rw [this] at ha
      cases ha
    cases x with
    | words32 ys =>
      unfold overwrite
      dsimp only
      split
      · exact .ret (words32_like.2 (by simp; omega))
      · exact .panic _
    | lit | bool | u8 | u32 | u64 | i64 | usize | bytes | words64 | pair | struct => exact .stuck
  | lit | bool | u8 | u32 | u64 | i64 | usize | words64 | pair | struct => cases x <;> exact .stuck

end Source

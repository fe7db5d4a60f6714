import Verif.Proofs.SrcLike

/-! What passing the checker of `Source/Labels.lean` means: two runs on related arguments write the same log. -/

namespace Source
open Rust
open Model.Log (LoggedOf quiet)

variable {ε : Type} {s : Bool}

/-! ## Labels -/

/-- How values with a label may differ. -/
def Rel : Label → Val → Val → Prop
  | .pub => fun v w => v = w
  | .sec => Like
  | .any => fun _ _ => True

theorem Rel.eq {l : Label} (h : l = .pub) {v w : Val} (hr : Rel l v w) : v = w := by
  subst h
  exact hr

theorem Rel.like {l : Label} (h : l ≠ .any) {v w : Val} (hr : Rel l v w) : Like v w := by
  cases l with
  | pub => cases hr; exact .refl _
  | sec => exact hr
  | any => exact (h rfl).elim

theorem Rel.join_left {a b : Label} {v w : Val} (h : Rel a v w) : Rel (a.join b) v w := by
  cases a with
  | pub =>
    cases h
    cases b with
    | pub => exact rfl
    | sec => exact Like.refl _
    | any => exact trivial
  | sec =>
    cases b with
    | pub | sec => exact h
    | any => exact trivial
  | any => exact trivial

theorem join_comm (a b : Label) : a.join b = b.join a := by cases a <;> cases b <;> rfl

theorem Rel.join_right {a b : Label} {v w : Val} (h : Rel b v w) : Rel (a.join b) v w := by
  rw [join_comm]
  exact h.join_left

theorem join_pub {a b : Label} (h : a.join b = .pub) : a = .pub ∧ b = .pub := by
  cases a <;> cases b <;> first | exact ⟨rfl, rfl⟩ | cases h

theorem join_ne_any {a b : Label} (h : a.join b ≠ .any) : a ≠ .any ∧ b ≠ .any := by
  cases a <;> cases b <;> simp_all [Label.join]

/-- The labels of several values. -/
inductive ArgsRel : List Label → List Val → List Val → Prop
  | nil : ArgsRel [] [] []
  | cons {l : Label} {ls : List Label} {v w : Val} {vs ws : List Val} (h : Rel l v w) (hs : ArgsRel ls vs ws) : ArgsRel (l :: ls) (v :: vs) (w :: ws)

theorem ArgsRel.eq {ls : List Label} {vs ws : List Val} (h : ArgsRel ls vs ws) (hl : joins ls = .pub) : vs = ws := by
  induction h with
  | nil => rfl
  | cons h _ ih =>
    obtain ⟨h1, h2⟩ := join_pub hl
    rw [h.eq h1, ih h2]

theorem ArgsRel.like {ls : List Label} {vs ws : List Val} (h : ArgsRel ls vs ws) (hl : joins ls ≠ .any) : List.Forall₂ Like vs ws := by
  induction h with
  | nil => exact .nil
  | cons h _ ih =>
    obtain ⟨h1, h2⟩ := join_ne_any hl
    exact .cons (h.like h1) (ih h2)

theorem grade_sound {ok : Bool} {l r : Label} (h : grade s ok l = some r) {m m' : Res Val} (hp : l = .pub → m = m')
    (hl : ok = true → l ≠ .any → SameVal s m m') : Same s (Rel r) m m' := by
  cases l with
  | pub =>
    cases h
    rw [hp rfl]
    exact .refl (fun _ => rfl) _
  | sec =>
    cases ok with
    | true =>
      cases h
      exact hl rfl nofun
    | false =>
      cases s with
      | true => cases h
      | false =>
        cases h
        exact .lax rfl _ _
  | any =>
    cases s with
    | true => cases h
    | false =>
      cases h
      exact .lax rfl _ _

/-- Where the checker passes though the shape may depend on more than shapes, it is not strict. -/
theorem grade_lax {ok : Bool} {l r : Label} (h : grade s ok l = some r) (hl : l ≠ .pub) (hok : ok = false) : s = false := by
  cases s with
  | false => rfl
  | true => cases l <;> first | exact (hl rfl).elim | (subst hok; cases h)

theorem grade_any {ok : Bool} {l r : Label} (h : grade s ok l = some r) (hl : l = .any) : s = false := by
  cases s with
  | false => rfl
  | true => subst hl; cases h

theorem asTy_rel {l r : Label} (h : grade s true l = some r) (t : Option Ty) {v w : Val} (hr : Rel l v w) : Same s (Rel r) (asTy t v) (asTy t w) :=
  grade_sound h (fun hl => by rw [hr.eq hl]) fun _ hl => asTy_like t (hr.like hl)

theorem grade_twice {ok : Bool} {l r : Label} (h : grade s ok l = some r) : grade s true r = some r := by
  cases s <;> cases l <;> cases ok <;> first | (cases h; done) | (cases h; rfl)

theorem asTy_rel' {ok : Bool} {l r : Label} (h : grade s ok l = some r) (t : Option Ty) {v w : Val} (hr : Rel r v w) :
    Same s (Rel r) (asTy t v) (asTy t w) := asTy_rel (grade_twice h) t hr

/-- The labels of the fields of a struct. -/
inductive FieldsRel : List Label → List (String × Val) → List (String × Val) → Prop
  | nil : FieldsRel [] [] []
  | cons (x : String) {l : Label} {ls : List Label} {v w : Val} {vs ws : List (String × Val)} (h : Rel l v w) (hs : FieldsRel ls vs ws) :
    FieldsRel (l :: ls) ((x, v) :: vs) ((x, w) :: ws)

theorem FieldsRel.eq {ls : List Label} {vs ws : List (String × Val)} (h : FieldsRel ls vs ws) (hl : joins ls = .pub) : vs = ws := by
  induction h with
  | nil => rfl
  | cons x h _ ih =>
    obtain ⟨h1, h2⟩ := join_pub hl
    rw [h.eq h1, ih h2]

theorem FieldsRel.like {ls : List Label} {vs ws : List (String × Val)} (h : FieldsRel ls vs ws) (hl : joins ls ≠ .any) :
    Like (.struct vs) (.struct ws) := by
  unfold Like
  rw [shape, shape]
  congr 1
  induction h with
  | nil => rfl
  | cons x h _ ih =>
    obtain ⟨h1, h2⟩ := join_ne_any hl
    rw [shapes, shapes, ih h2, show shape _ = shape _ from h.like h1]

/-! ## Local variables -/

/-- The variables of two runs. -/
inductive EnvRel : Labs → Env → Env → Prop
  | nil : EnvRel [] [] []
  | cons (x : String) {l : Label} {v w : Val} (h : Rel l v w) {g : Labs} {e e' : Env} (hs : EnvRel g e e') :
    EnvRel ((x, l) :: g) ((x, v) :: e) ((x, w) :: e')

theorem EnvRel.length {g : Labs} {e e' : Env} (h : EnvRel g e e') : e.length = g.length ∧ e'.length = g.length := by
  induction h with
  | nil => exact ⟨rfl, rfl⟩
  | cons _ _ _ ih => simp [ih.1, ih.2]

theorem EnvRel.get {g : Labs} {e e' : Env} (h : EnvRel g e e') {x : String} {l : Label} (hx : g.get x = some l) :
    ∃ v w, Env.get x e = pure v ∧ Env.get x e' = pure w ∧ Rel l v w := by
  induction h with
  | nil => cases hx
  | cons y h _ ih =>
    unfold Labs.get at hx
    unfold Env.get
    split at hx
    · rename_i hxy
      cases hx
      exact ⟨_, _, if_pos hxy, if_pos hxy, h⟩
    · rename_i hxy
      rw [if_neg hxy, if_neg hxy]
      exact ih hx

theorem EnvRel.set {g : Labs} {e e' : Env} (h : EnvRel g e e') {x : String} {l : Label} (hx : g.get x = some l) {r : Label} {v w : Val} (hr : Rel r v w) :
    ∃ f f', Env.set x v e = pure f ∧ Env.set x w e' = pure f' ∧ EnvRel (g.set x r) f f' := by
  induction h with
  | nil => cases hx
  | cons y h hs ih =>
    unfold Labs.get at hx
    unfold Env.set Labs.set
    split at hx
    · rename_i hxy
      simp only [if_pos hxy]
      exact ⟨_, _, rfl, rfl, .cons y hr hs⟩
    · rename_i hxy
      simp only [if_neg hxy]
      obtain ⟨f, f', h1, h2, h3⟩ := ih hx
      rw [h1, h2]
      exact ⟨_, _, rfl, rfl, .cons y h h3⟩

theorem EnvRel.drop {g : Labs} {e e' : Env} (h : EnvRel g e e') (n : Nat) : EnvRel (g.drop n) (e.drop n) (e'.drop n) := by
  induction n generalizing g e e' with
  | zero => exact h
  | succ n ih =>
    cases h with
    | nil => exact .nil
    | cons _ _ hs => exact ih hs

theorem EnvRel.leave {g : Labs} {e e' : Env} (h : EnvRel g e e') (n : Nat) : EnvRel (g.leave n) (e.leave n) (e'.leave n) := by
  unfold Labs.leave Env.leave
  rw [h.length.1, h.length.2]
  exact h.drop _

theorem EnvRel.join_left {g k : Labs} {e e' : Env} (h : EnvRel g e e') {r : Labs} (hr : g.join k = some r) : EnvRel r e e' := by
  induction h generalizing k r with
  | nil =>
    cases k with
    | nil => cases hr; exact .nil
    | cons _ _ => cases hr
  | cons x h _ ih =>
    cases k with
    | nil => cases hr
    | cons y k =>
      obtain ⟨y, b⟩ := y
      unfold Labs.join at hr
      split at hr
      · obtain ⟨t, ht, hr⟩ := Option.bind_eq_some_iff.1 hr
        cases hr
        exact .cons x h.join_left (ih ht)
      · cases hr

theorem EnvRel.join_right {g k : Labs} {e e' : Env} (h : EnvRel k e e') {r : Labs} (hr : g.join k = some r) : EnvRel r e e' := by
  induction h generalizing g r with
  | nil =>
    cases g with
    | nil => cases hr; exact .nil
    | cons _ _ => cases hr
  | cons x h _ ih =>
    cases g with
    | nil => cases hr
    | cons y g =>
      obtain ⟨y, b⟩ := y
      unfold Labs.join at hr
      split at hr
      · rename_i hxy
        obtain ⟨t, ht, hr⟩ := Option.bind_eq_some_iff.1 hr
        cases hr
        cases hxy
        exact .cons _ h.join_right (ih ht)
      · cases hr

theorem fixLab_start {f : Labs → Option Labs} {n : Nat} {g k : Labs} (h : fixLab f n g = some k) {e e' : Env} (he : EnvRel g e e') : EnvRel k e e' := by
  induction n generalizing g with
  | zero => cases h
  | succ n ih =>
    unfold fixLab at h
    obtain ⟨a, _, h⟩ := Option.bind_eq_some_iff.1 h
    obtain ⟨b, hb, h⟩ := Option.bind_eq_some_iff.1 h
    split at h
    · cases h
      exact he
    · exact ih h (he.join_left hb)

theorem fixLab_step {f : Labs → Option Labs} {n : Nat} {g k : Labs} (h : fixLab f n g = some k) :
    ∃ a, f k = some a ∧ ∀ e e', EnvRel a e e' → EnvRel k e e' := by
  induction n generalizing g with
  | zero => cases h
  | succ n ih =>
    unfold fixLab at h
    obtain ⟨a, ha, h⟩ := Option.bind_eq_some_iff.1 h
    obtain ⟨b, hb, h⟩ := Option.bind_eq_some_iff.1 h
    split at h
    · rename_i hbg
      subst hbg
      cases h
      exact ⟨a, ha, fun _ _ he => he.join_right hb⟩
    · exact ih h

/-! ## Expressions -/

/-- Outside of the strict mode the observer sees neither positions nor lengths. -/
structure Hides (s : Bool) (obs : Access → List ε) : Prop where
  read : s = false → ∀ x b i j, obs (.read x b i) = obs (.read x b j)
  write : s = false → ∀ x b i j, obs (.write x b i) = obs (.write x b j)
  part : s = false → ∀ a b a' b', obs (.part a b) = obs (.part a' b')
  divide : s = false → ∀ a b a' b', obs (.divide a b) = obs (.divide a' b')
  shift : s = false → ∀ a b, obs (.shift a) = obs (.shift b)
  split : s = false → ∀ x i n, obs (.split x i n) = []
  alloc : s = false → ∀ n, obs (.alloc n) = []

/-- The labels of the functions are right. -/
def SigOk (s : Bool) (sig : String → List Label → Option Label) (c : LCtx ε) : Prop :=
  ∀ f ls l vs ws, sig f ls = some l → ArgsRel ls vs ws → Agree s (Rel l) (c.call f vs) (c.call f ws)

theorem position_rel {l : Label} {v w : Val} (h : Rel l v w) (hl : l ≠ .pub → s = false) :
    Same s (fun i j => l = .pub → i = j) (position v) (position w) := by
  by_cases hp : l = .pub
  · rw [h.eq hp]
    exact .refl (fun _ _ => rfl) _
  · exact (Same.lax (hl hp) _ _).mono fun _ _ _ h => (hp h).elim

theorem flat_one {γ δ : Type} {f : γ → List δ} {a b : γ} (h : f a = f b) : [a].flatMap f = [b].flatMap f := by
  simp only [List.flatMap_cons, List.flatMap_nil, h]

theorem opNotes_rel {obs : Access → List ε} (ho : Hides s obs) {op : BinOp} {x y r : Label} (h : grade s (opOk s op y) (x.join y) = some r)
    {v v' w w' : Val} (hv : Rel x v v') (hw : Rel y w w') : (opNotes op v w).flatMap obs = (opNotes op v' w').flatMap obs := by
  by_cases hp : x.join y = .pub
  · rw [hv.eq (join_pub hp).1, hw.eq (join_pub hp).2]
  · cases s with
    | false =>
      cases op
      case div | rem => exact flat_one (ho.divide rfl _ _ _ _)
      case shl | shr => exact flat_one (ho.shift rfl _ _)
      all_goals rfl
    | true =>
      cases op
      case div | rem =>
        exfalso
        cases hl : x.join y <;> simp_all [grade, opOk, BinOp.total, BinOp.isShift]
      case shl | shr =>
        have : y = .pub := by cases hl : x.join y <;> simp_all [grade, opOk, BinOp.total, BinOp.isShift]
        rw [opNotes, opNotes, hw.eq this]
      all_goals rfl

theorem methodNotes_hidden {obs : Access → List ε} (h : Hides s obs) (hs : s = false) (e : Expr) (m : String) (vs : List Val) (r : Val) :
    (methodNotes e m vs r).flatMap obs = [] := by
  unfold methodNotes
  split
  · simp [h.split hs]
  · simp [h.alloc hs]
  · simp [h.alloc hs]
  · simp [h.alloc hs]
  · rfl

theorem method_rel {m : String} {x r : Label} {ls : List Label} (h : labMethod s m x ls = some r) {v w : Val} (hv : Rel x v w) {vs ws : List Val}
    (ha : ArgsRel ls vs ws) : Same s (Rel r) (applyMethod m v vs) (applyMethod m w ws) := by
  unfold labMethod at h
  split at h
  · rename_i hm
    simp only [beq_iff_eq] at hm
    subst hm
    by_cases hj : x.join (joins ls) = .sec
    · rw [if_pos hj] at h
      cases h
      obtain ⟨h1, h2⟩ := join_ne_any (a := x) (b := joins ls) (by rw [hj]; nofun)
      exact len_same (hv.like h1) (ha.like h2)
    · rw [if_neg hj] at h
      refine grade_sound h (fun hl => ?_) fun hok => nomatch hok
      obtain ⟨h1, h2⟩ := join_pub hl
      rw [hv.eq h1, ha.eq h2]
  · refine grade_sound h (fun hl => ?_) fun hok hl => ?_
    · obtain ⟨h1, h2⟩ := join_pub hl
      rw [hv.eq h1, ha.eq h2]
    · obtain ⟨h1, h2⟩ := join_ne_any hl
      simp only [Bool.or_eq_true, Bool.and_eq_true, beq_iff_eq] at hok
      rcases hok with hok | ⟨rfl, hp⟩
      · exact method_like hok (hv.like h1) (ha.like h2)
      · rw [ha.eq hp]
        exact splitAt_like (hv.like h1) _

theorem labMethod_lax {m : String} {x r : Label} {ls : List Label} (h : labMethod s m x ls = some r) (hs : s = true) :
    x ≠ .any ∧ joins ls ≠ .any ∧ r ≠ .any ∧ (m = "split_at" → x.join (joins ls) = .pub ∨ joins ls = .pub) := by
  subst hs
  unfold labMethod at h
  have key : ∀ ok l, grade true ok l = some r → l ≠ .any ∧ r ≠ .any := by
    intro ok l h
    cases l <;> cases ok <;> first | (cases h; done) | (cases h; exact ⟨nofun, nofun⟩)
  split at h
  · rename_i hm
    have := key _ _ h
    have hx : x.join (joins ls) ≠ .any := by
      intro hx
      rw [hx] at this
      exact this.1 rfl
    simp only [beq_iff_eq] at hm
    exact ⟨(join_ne_any hx).1, (join_ne_any hx).2, this.2, fun h => absurd (hm.symm.trans h) (by decide)⟩
  · have := key _ _ h
    refine ⟨(join_ne_any this.1).1, (join_ne_any this.1).2, this.2, fun hm => ?_⟩
    by_cases hp : x.join (joins ls) = .pub
    · exact .inl hp
    · right
      by_contra hj
      have := grade_lax h hp (by subst hm; simp [hj]; rfl)
      cases this

variable {c : LCtx ε} {sig : String → List Label → Option Label}

theorem opt_bind {γ δ : Type} {o : Option γ} {f : γ → Option δ} {b : δ} (h : (o >>= f) = some b) : ∃ a, o = some a ∧ f a = some b :=
  Option.bind_eq_some_iff.1 h

theorem quiet_map {γ δ : Type} (m : Res γ) (f : γ → δ) : (quiet m >>= fun a => pure (f a) : LoggedOf ε δ) = quiet (m >>= fun a => pure (f a)) := by
  funext log
  show ((m >>= fun a => pure (a, log)) >>= fun x => pure (f x.1, x.2)) = ((m >>= fun a => pure (f a)) >>= fun b => pure (b, log))
  rw [bind_assoc, bind_assoc]
  rfl

theorem labIndex_sound {x y r : Label} (h : labIndex s x y = some r) : (y ≠ .pub → s = false) ∧ ∀ {v w : Val}, Rel x v w → ∀ i j, (y = .pub → i = j) →
    Same s (Rel r) (item v i) (item w j) := by
  unfold labIndex at h
  split at h
  · rename_i hy
    refine ⟨fun hn => (hn hy).elim, fun hv i j hij => ?_⟩
    cases hij hy
    exact grade_sound h (fun hl => by rw [hv.eq hl]) fun _ hl => item_like (hv.like hl) i
  · rename_i hy
    split at h
    · cases h
    · rename_i hs
      have hs : s = false := by simpa using hs
      refine ⟨fun _ => hs, fun hv i j _ => ?_⟩
      split at h
      · cases h
        exact .lax hs _ _
      · rename_i hx
        cases h
        exact item_lax hs (hv.like hx) i j

mutual
theorem labE_sound (hsig : SigOk s sig c) (hobs : Hides s c.obs) {g : Labs} {env env' : Env} (henv : EnvRel g env env') (want : Option Ty) :
    (e : Expr) → {r : Label} → labE s sig g e = some r → Agree s (Rel r) (evalL c env want e) (evalL c env' want e)
  | .lit n, r, h => by
    rw [labE] at h
    cases h
    rw [evalL, evalL]
    exact .quiet (.refl (fun _ => rfl) _)
  | .var x, r, h => by
    rw [labE] at h
    replace h := opt_bind h
    obtain ⟨l, hl, h⟩ := h
    rw [evalL, evalL]
    obtain ⟨v, w, h1, h2, h3⟩ := henv.get hl
    rw [h1, h2]
    exact .bind (.quiet (.ret h3)) fun a b hab => .quiet (asTy_rel h want hab)
  | .const x, r, h => by
    rw [labE] at h
    rw [evalL, evalL]
    exact hsig _ _ _ _ _ h .nil
  | .neg e, r, h => by
    rw [labE] at h
    replace h := opt_bind h
    obtain ⟨l, hl, h⟩ := h
    rw [evalL, evalL]
    refine .bind (labE_sound hsig hobs henv none e hl) fun v w hv => ?_
    refine .bind (.quiet (R := Rel r) (grade_sound h (fun hl => by rw [hv.eq hl]) fun ok hl => ?_)) fun a b hab => .quiet (asTy_rel' h want hab)
    exact negate_lax (by simpa using ok) c.p (hv.like hl)
  | .bin op a b, r, h => by
    rw [labE] at h
    replace h := opt_bind h
    obtain ⟨x, hx, h⟩ := h
    replace h := opt_bind h
    obtain ⟨y, hy, h⟩ := h
    rw [evalL, evalL]
    refine .bind (labE_sound hsig hobs henv none a hx) fun v w hv => .bind (labE_sound hsig hobs henv none b hy) fun v' w' hv' => ?_
    refine .note c (opNotes_rel hobs h hv hv') ?_
    refine .bind (.quiet (R := Rel r) (grade_sound h (fun hl => ?_) fun ok hl => ?_)) fun a b hab => .quiet (asTy_rel' h want hab)
    · rw [hv.eq (join_pub hl).1, hv'.eq (join_pub hl).2]
    · exact binOp_ok c.u c.p op ok (hv.like (join_ne_any hl).1) (hv'.like (join_ne_any hl).2) fun hp => hv'.eq hp
  | .cast e t, r, h => by
    rw [labE] at h
    replace h := opt_bind h
    obtain ⟨l, hl, h⟩ := h
    rw [evalL, evalL]
    refine .bind (labE_sound hsig hobs henv none e hl) fun v w hv => ?_
    rw [quiet_map, quiet_map]
    exact .quiet (grade_sound h (fun hl => by rw [hv.eq hl]) fun _ hl => .bind (num_same (hv.like hl)) fun _ _ _ => .ret (castTo_like _ _ _ _))
  | .index e i, r, h => by
    rw [labE] at h
    replace h := opt_bind h
    obtain ⟨x, hx, h⟩ := h
    replace h := opt_bind h
    obtain ⟨y, hy, h⟩ := h
    rw [evalL, evalL]
    refine .bind (labE_sound hsig hobs henv none e hx) fun v w hv => .bind (labE_sound hsig hobs henv none i hy) fun v' w' hv' => ?_
    obtain ⟨hs, h⟩ := labIndex_sound h
    refine .bind (.quiet (position_rel hv' hs)) fun k k' hk => .note c ?_ (.quiet (h hv k k' hk))
    by_cases hp : y = .pub
    · rw [hk hp]
    · exact flat_one (hobs.read (hs hp) _ _ _ _)
  | .slice e lo hi, r, h => by
    rw [labE] at h
    replace h := opt_bind h
    obtain ⟨x, hx, h⟩ := h
    replace h := opt_bind h
    obtain ⟨y, hy, h⟩ := h
    replace h := opt_bind h
    obtain ⟨z, hz, h⟩ := h
    rw [evalL, evalL]
    refine .bind (labE_sound hsig hobs henv none e hx) fun v w hv => .bind (labE_sound hsig hobs henv none lo hy) fun v' w' hv' =>
      .bind (labE_sound hsig hobs henv none hi hz) fun v'' w'' hv'' => ?_
    have hs : y.join z ≠ .pub → s = false := fun hn => grade_lax h (fun hp => hn (join_pub hp).2) (by simpa using hn)
    refine .bind (.quiet (position_rel hv' fun hn => hs fun hp => hn (join_pub hp).1)) fun a a' ha =>
      .bind (.quiet (position_rel hv'' fun hn => hs fun hp => hn (join_pub hp).2)) fun b b' hb => .note c ?_ (.quiet ?_)
    · by_cases hp : y.join z = .pub
      · rw [ha (join_pub hp).1, hb (join_pub hp).2]
      · exact flat_one (hobs.part (hs hp) _ _ _ _)
    · refine grade_sound h (fun hl => ?_) fun ok hl => ?_
      · rw [hv.eq (join_pub hl).1, ha (join_pub (join_pub hl).2).1, hb (join_pub (join_pub hl).2).2]
      · have hp : y.join z = .pub := by simpa using ok
        rw [ha (join_pub hp).1, hb (join_pub hp).2]
        exact part_like (hv.like (join_ne_any hl).1) _ _
  | .prefix e hi, r, h => by
    rw [labE] at h
    replace h := opt_bind h
    obtain ⟨x, hx, h⟩ := h
    replace h := opt_bind h
    obtain ⟨z, hz, h⟩ := h
    rw [evalL, evalL]
    refine .bind (labE_sound hsig hobs henv none e hx) fun v w hv => .bind (labE_sound hsig hobs henv none hi hz) fun v'' w'' hv'' => ?_
    have hs : z ≠ .pub → s = false := fun hn => grade_lax h (fun hp => hn (join_pub hp).2) (by simpa using hn)
    refine .bind (.quiet (position_rel hv'' hs)) fun b b' hb => .note c ?_ (.quiet ?_)
    · by_cases hp : z = .pub
      · rw [hb hp]
      · exact flat_one (hobs.part (hs hp) _ _ _ _)
    · refine grade_sound h (fun hl => ?_) fun ok hl => ?_
      · rw [hv.eq (join_pub hl).1, hb (join_pub hl).2]
      · have hp : z = .pub := by simpa using ok
        rw [hb hp]
        exact part_like (hv.like (join_ne_any hl).1) _ _
  | .field e f, r, h => by
    rw [labE] at h
    replace h := opt_bind h
    obtain ⟨l, hl, h⟩ := h
    rw [evalL, evalL]
    refine .bind (labE_sound hsig hobs henv none e hl) fun v w hv => ?_
    exact .quiet (grade_sound h (fun hl => by rw [hv.eq hl]) fun _ hl => getField_like f (hv.like hl))
  | .call f args, r, h => by
    rw [labE] at h
    replace h := opt_bind h
    obtain ⟨ls, hls, h⟩ := h
    rw [evalL, evalL]
    refine .bind (labL_sound hsig hobs henv args hls) fun vs ws hvs => ?_
    split at h
    · cases h
      rename_i hf
      rw [if_pos hf, if_pos hf]
      exact .quiet (.refl (fun _ => rfl) _)
    · rename_i hf
      rw [if_neg hf, if_neg hf]
      exact .note c rfl (hsig _ _ _ _ _ h hvs)
  | .method e m args, r, h => by
    rw [labE] at h
    replace h := opt_bind h
    obtain ⟨x, hx, h⟩ := h
    replace h := opt_bind h
    obtain ⟨ls, hls, h⟩ := h
    rw [evalL, evalL]
    refine .bind (labE_sound hsig hobs henv none e hx) fun v w hv => .bind (labL_sound hsig hobs henv args hls) fun vs ws hvs => ?_
    refine .bind (.quiet (method_rel h hv hvs)) fun a b hab => .note c ?_ (.pure hab)
    by_cases hs : s = true
    · obtain ⟨h1, h2, h3, h4⟩ := labMethod_lax h hs
      rw [methodNotes_like e m (fun hm => ?_) (hvs.like h2) (hab.like h3)]
      rcases h4 hm with h4 | h4
      · exact hvs.eq (join_pub h4).2
      · exact hvs.eq h4
    · have hs : s = false := by simpa using hs
      rw [methodNotes_hidden hobs hs, methodNotes_hidden hobs hs]
  | .vecOf x n, r, h => by
    rw [labE] at h
    replace h := opt_bind h
    obtain ⟨a, ha, h⟩ := h
    replace h := opt_bind h
    obtain ⟨b, hb, h⟩ := h
    rw [evalL, evalL]
    refine .bind (labE_sound hsig hobs henv none x ha) fun v w hv => .bind (labE_sound hsig hobs henv none n hb) fun v' w' hv' => ?_
    have hs : b ≠ .pub → s = false := fun hn => grade_lax h (fun hp => hn (join_pub hp).2) (by simpa using hn)
    refine .bind (.quiet (position_rel hv' hs)) fun k k' hk => .note c ?_ (.quiet ?_)
    · by_cases hp : b = .pub
      · rw [hk hp]
      · simp [hobs.alloc (hs hp)]
    · refine grade_sound h (fun hl => ?_) fun ok hl => ?_
      · rw [hv.eq (join_pub hl).1, hk (join_pub hl).2]
      · have hp : b = .pub := by simpa using ok
        rw [hk hp]
        exact repeated_like _ _ _ (hv.like (join_ne_any hl).1)
  | .arrayOf x n, r, h => by
    rw [labE] at h
    replace h := opt_bind h
    obtain ⟨l, hl, h⟩ := h
    rw [evalL, evalL]
    refine .bind (labE_sound hsig hobs henv none x hl) fun v w hv => ?_
    exact .quiet (grade_sound h (fun hl => by rw [hv.eq hl]) fun _ hl => repeated_like _ _ _ (hv.like hl))
  | .list es, r, h => by
    rw [labE] at h
    replace h := opt_bind h
    obtain ⟨ls, hls, h⟩ := h
    rw [evalL, evalL]
    refine .bind (labL_sound hsig hobs henv es hls) fun vs ws hvs => ?_
    exact .quiet (grade_sound h (fun hl => by rw [hvs.eq hl]) fun _ hl => listed_like _ (hvs.like hl))
  | .struct fields es, r, h => by
    rw [labE] at h
    replace h := opt_bind h
    obtain ⟨ls, hls, h⟩ := h
    rw [evalL, evalL]
    refine .bind (labF_sound hsig hobs henv fields es hls) fun vs ws hvs => ?_
    exact .quiet (grade_sound (m := pure _) (m' := pure _) h (fun hl => by rw [hvs.eq hl]) fun _ hl => .ret (hvs.like hl))

theorem labL_sound (hsig : SigOk s sig c) (hobs : Hides s c.obs) {g : Labs} {env env' : Env} (henv : EnvRel g env env') :
    (es : List Expr) → {ls : List Label} → labL s sig g es = some ls → Agree s (ArgsRel ls) (evalListL c env es) (evalListL c env' es)
  | [], ls, h => by
    rw [labL] at h
    cases h
    rw [evalListL, evalListL]
    exact .pure .nil
  | e :: es, ls, h => by
    rw [labL] at h
    replace h := opt_bind h
    obtain ⟨l, hl, h⟩ := h
    replace h := opt_bind h
    obtain ⟨ls, hls, h⟩ := h
    cases h
    rw [evalListL, evalListL]
    exact .bind (labE_sound hsig hobs henv none e hl) fun v w hv => .bind (labL_sound hsig hobs henv es hls) fun vs ws hvs => .pure (.cons hv hvs)

theorem labF_sound (hsig : SigOk s sig c) (hobs : Hides s c.obs) {g : Labs} {env env' : Env} (henv : EnvRel g env env') (fields : List (String × Ty)) :
    (es : List Expr) → {ls : List Label} → labL s sig g es = some ls → Agree s (FieldsRel ls) (evalFieldsL c env fields es) (evalFieldsL c env' fields es)
  | [], ls, h => by
    rw [labL] at h
    cases h
    rw [evalFieldsL, evalFieldsL]
    exact .pure .nil
  | e :: es, ls, h => by
    rw [labL] at h
    replace h := opt_bind h
    obtain ⟨l, hl, h⟩ := h
    replace h := opt_bind h
    obtain ⟨ls, hls, h⟩ := h
    cases h
    cases fields with
    | nil =>
      rw [evalFieldsL.eq_def, evalFieldsL.eq_def]
      exact .quiet (.panic _)
    | cons f fields =>
      rw [evalFieldsL.eq_def, evalFieldsL.eq_def]
      exact .bind (labE_sound hsig hobs henv _ e hl) fun v w hv => .bind (labF_sound hsig hobs henv fields es hls) fun vs ws hvs =>
        .pure (.cons f.1 hv hvs)
end

/-! ## Places -/

/-- The places of two runs. -/
structure PlRel (l : Expr) (pl : String × Label) (a b : String × List Step) : Prop where
  left : a.1 = pl.1
  right : b.1 = pl.1
  same : pl.2 = .pub → a = b
  last : isElement l = true → (∃ k, a.2.getLast? = some (.index k)) ∧ ∃ k, b.2.getLast? = some (.index k)

theorem labP_sound (hsig : SigOk s sig c) (hobs : Hides s c.obs) {g : Labs} {env env' : Env} (henv : EnvRel g env env') :
    (l : Expr) → {pl : String × Label} → labP s sig g l = some pl →
      (pl.2 ≠ .pub → s = false) ∧ Agree s (PlRel l pl) (placeL c env l) (placeL c env' l)
  | .var x, pl, h => by
    simp only [labP] at h
    cases h
    exact ⟨fun hn => (hn rfl).elim, .pure ⟨rfl, rfl, fun _ => rfl, nofun⟩⟩
  | .index e i, pl, h => by
    simp only [labP] at h
    replace h := opt_bind h
    obtain ⟨q, hq, h⟩ := h
    replace h := opt_bind h
    obtain ⟨y, hy, h⟩ := h
    split at h
    · cases h
    · rename_i hs
      cases h
      obtain ⟨h1, h2⟩ := labP_sound hsig hobs henv e hq
      have hs : y ≠ .pub → s = false := by
        intro hn
        cases hs' : s with
        | false => rfl
        | true => exact (hs ⟨hs', hn⟩).elim
      refine ⟨fun hn => ?_, ?_⟩
      · by_cases hp : q.2 = .pub
        · refine hs fun hy => hn ?_
          rw [hp, hy]
          rfl
        · exact h1 hp
      · rw [placeL, placeL]
        refine .bind h2 fun a b hab => .bind (labE_sound hsig hobs henv none i hy) fun v w hv => .bind (.quiet (position_rel hv hs)) fun k k' hk => .pure ?_
        refine ⟨hab.left, hab.right, fun hp => ?_, fun _ => ⟨⟨k, by simp⟩, ⟨k', by simp⟩⟩⟩
        rw [hab.same (join_pub hp).1, hk (join_pub hp).2]
  | .field e f, pl, h => by
    simp only [labP] at h
    obtain ⟨h1, h2⟩ := labP_sound hsig hobs henv e h
    refine ⟨h1, ?_⟩
    rw [placeL, placeL]
    exact .bind h2 fun a b hab => .pure ⟨hab.left, hab.right, fun hp => by rw [hab.same hp], nofun⟩
  | .lit _, _, h | .const _, _, h | .neg _, _, h | .bin _ _ _, _, h | .cast _ _, _, h | .slice _ _ _, _, h | .prefix _ _, _, h | .call _ _, _, h
  | .method _ _ _, _, h | .vecOf _ _, _, h | .arrayOf _ _, _, h | .list _, _, h | .struct _ _, _, h => by
    simp only [labP, reduceCtorEq] at h

theorem notes_rel {l : Expr} {pl : String × Label} {a b : String × List Step} (h : PlRel l pl a b) (hs : pl.2 ≠ .pub → s = false)
    {obs : Access → List ε} (hobs : Hides s obs) :
    (readNotes l a).flatMap obs = (readNotes l b).flatMap obs ∧ (writeNotes l a).flatMap obs = (writeNotes l b).flatMap obs := by
  by_cases hp : pl.2 = .pub
  · rw [h.same hp]
    exact ⟨rfl, rfl⟩
  · cases l with
    | index e i =>
      obtain ⟨⟨k, hk⟩, ⟨k', hk'⟩⟩ := h.last rfl
      simp only [readNotes, writeNotes, element, hk, hk']
      exact ⟨flat_one (hobs.read (hs hp) _ _ _ _), flat_one (hobs.write (hs hp) _ _ _ _)⟩
    | lit | var | const | neg | bin | cast | slice | «prefix» | field | call | method | vecOf | arrayOf | list | struct => exact ⟨rfl, rfl⟩

theorem read_rel {g : Labs} {env env' : Env} (henv : EnvRel g env env') {l : Expr} {pl : String × Label} {a b : String × List Step} (h : PlRel l pl a b)
    {r : Label} (hr : labRead s g pl = some r) : Same s (Rel r) (readPlace env a) (readPlace env' b) := by
  unfold labRead at hr
  obtain ⟨o, ho, hr⟩ := opt_bind hr
  obtain ⟨v, w, h1, h2, hv⟩ := henv.get ho
  unfold readPlace
  rw [h.left, h.right, h1, h2]
  show Same s _ (readSteps a.2 v) (readSteps b.2 w)
  refine grade_sound hr (fun hl => ?_) fun ok hl => ?_
  · rw [hv.eq (join_pub hl).1, h.same (join_pub hl).2]
  · rw [h.same (by simpa using ok)]
    exact readSteps_like _ (hv.like (join_ne_any hl).1)

theorem write_rel {g g' : Labs} {env env' : Env} (henv : EnvRel g env env') {l : Expr} {pl : String × Label} {a b : String × List Step} (h : PlRel l pl a b)
    {n : Label} (hr : labWrite s g l pl n = some g') {x y : Val} (hx : Rel n x y) : Same s (EnvRel g') (writePlace env a x) (writePlace env' b y) := by
  unfold labWrite at hr
  replace hr := opt_bind hr
  obtain ⟨o, ho, hr⟩ := hr
  replace hr := opt_bind hr
  obtain ⟨r, hr, hg⟩ := hr
  cases hg
  obtain ⟨v, w, h1, h2, hv⟩ := henv.get ho
  unfold writePlace
  rw [h.left, h.right, h1, h2]
  show Same s _ (writeSteps x a.2 v >>= fun z => Env.set pl.1 z env) (writeSteps y b.2 w >>= fun z => Env.set pl.1 z env')
  have key : Same s (Rel r) (writeSteps x a.2 v) (writeSteps y b.2 w) := by
    unfold labPut at hr
    split at hr
    · rename_i hc
      cases hr
      obtain ⟨hs, hl, _⟩ := hc
      obtain ⟨⟨k, hk⟩, ⟨k', hk'⟩⟩ := h.last hl
      by_cases hoa : o = .any
      · subst hoa
        exact .lax hs _ _
      · refine .both hs fun z z' hz hz' => ?_
        refine Rel.join_right (b := .sec) ?_
        exact ((writeSteps_gives x a.2 hk v z hz).trans (hv.like hoa)).trans (writeSteps_gives y b.2 hk' w z' hz').symm
    · refine grade_sound hr (fun hl => ?_) fun ok hl => ?_
      · rw [hv.eq (join_pub hl).1, hx.eq (join_pub (join_pub hl).2).1, h.same (join_pub (join_pub hl).2).2]
      · rw [h.same (by simpa using ok)]
        exact writeSteps_like (hx.like (join_ne_any (join_ne_any hl).2).1) _ (hv.like (join_ne_any hl).1)
  refine .bind key fun z z' hz => ?_
  obtain ⟨f, f', hf, hf', he⟩ := henv.set ho hz
  rw [hf, hf']
  exact .ret he

theorem Same.keep {γ : Type} {R : γ → γ → Prop} {m m' : Res γ} (h : Same s R m m') : Same s (fun a b => R a b ∧ m = pure a ∧ m' = pure b) m m' := by
  cases h with
  | ret h => exact .ret ⟨h, rfl, rfl⟩
  | panic e => exact .panic e
  | never => exact .never
  | left hs h => exact .left hs h
  | right hs h => exact .right hs h

theorem overwrite_rel {o y x r : Label} (h : labOverwrite s o y x = some r) {v w : Val} (hv : Rel o v w) {i j : Nat} (hi : y = .pub → i = j)
    {a b : Val} (ha : part v 0 i = pure a) (hb : part w 0 j = pure b) {p q : Val} (hx : Rel x p q) : Same s (Rel r) (overwrite v i p) (overwrite w j q) := by
  unfold labOverwrite at h
  split at h
  · rename_i hc
    cases h
    by_cases hoa : o = .any
    · subst hoa
      exact .lax hc.1 _ _
    · refine .both hc.1 fun z z' hz hz' => ?_
      refine Rel.join_right (b := .sec) ?_
      exact ((overwrite_gives v i p a ha z hz).trans (hv.like hoa)).trans (overwrite_gives w j q b hb z' hz').symm
  · refine grade_sound h (fun hl => ?_) fun ok hl => ?_
    · rw [hv.eq (join_pub hl).1, hi (join_pub (join_pub hl).2).1, hx.eq (join_pub (join_pub hl).2).2]
    · rw [hi (by simpa using ok)]
      exact overwrite_like (hv.like (join_ne_any hl).1) _ (hx.like (join_ne_any (join_ne_any hl).2).2)

theorem overwrite_lax {o y x r : Label} (h : labOverwrite s o y x = some r) (hn : ¬(o ≠ .any ∧ y = .pub) ) (hp : o.join (y.join x) ≠ .pub) : s = false := by
  cases hs : s with
  | false => rfl
  | true =>
    subst hs
    unfold labOverwrite at h
    rw [if_neg (fun hc => nomatch hc.1)] at h
    by_cases ho : o = .any
    · subst ho
      exact grade_any h rfl
    · exact grade_lax h hp (by simpa using fun hy => hn ⟨ho, hy⟩)

theorem mutator_rel {u : Nat} {m : String} {o r : Label} {ls : List Label}
    (h : grade s (keepsShapeMut m || (m == "resize" && headPub ls)) (o.join (joins ls)) = some r) {v w : Val} (hv : Rel o v w) {vs ws : List Val}
    (ha : ArgsRel ls vs ws) : Same s (Rel r) (applyMutator u m v vs) (applyMutator u m w ws) := by
  refine grade_sound h (fun hl => ?_) fun ok hl => ?_
  · rw [hv.eq (join_pub hl).1, ha.eq (join_pub hl).2]
  · have h1 := hv.like (join_ne_any hl).1
    simp only [Bool.or_eq_true, Bool.and_eq_true, beq_iff_eq] at ok
    rcases ok with ok | ⟨rfl, ok⟩
    · exact mutator_like u ok h1 (ha.like (join_ne_any hl).2)
    · cases ha with
      | nil => cases ok
      | cons h' ha =>
        simp only [headPub, List.head?_cons, beq_iff_eq, Option.some.injEq] at ok
        rw [h'.eq ok]
        exact resize_like u h1 _ (ha.like (join_ne_any (join_ne_any hl).2).2)

/-! ## Statements -/

/-- How the statements of two runs end. -/
inductive FlowRel (brk : Brk) (g : Labs) : Flow → Flow → Prop
  | next {e e' : Env} (h : EnvRel g e e') : FlowRel brk g (.next e) (.next e')
  | brk {b : Labs} (hb : brk = .upTo b) {e e' : Env} (h : EnvRel b (e.leave b.length) (e'.leave b.length)) : FlowRel brk g (.brk e) (.brk e')

theorem leave_leave (e : Env) {m n : Nat} (h : m ≤ n) : (e.leave n).leave m = e.leave m := by
  unfold Env.leave
  rw [List.drop_drop, List.length_drop]
  congr 1
  omega

theorem scope_rel {brk : Brk} {g : Labs} {ss : List Stmt} {env env' : Env} (h : Agree s (FlowRel brk g) (execBlockL c ss env) (execBlockL c ss env'))
    (n : Nat) (hn : brk.fits n = true) : Agree s (FlowRel brk (g.leave n)) (execScopeL c n ss env) (execScopeL c n ss env') := by
  rw [execScopeL, execScopeL]
  refine .bind h fun a b hab => ?_
  cases hab with
  | next h => exact .pure (.next (h.leave n))
  | @brk k hb e e' he =>
    subst hb
    have hn : k.length ≤ n := by simpa [Brk.fits] using hn
    refine .pure (.brk rfl ?_)
    rw [leave_leave _ hn, leave_leave _ hn]
    exact he

/-- The labels after a block that is the body of a loop with labels `b`. -/
inductive RoundRel (b g : Labs) : Flow → Flow → Prop
  | next {e e' : Env} (h : EnvRel g e e') : RoundRel b g (.next e) (.next e')
  | brk {e e' : Env} (h : EnvRel b e e') : RoundRel b g (.brk e) (.brk e')

theorem round_rel {b g : Labs} {ss : List Stmt} {env env' : Env} (h : Agree s (FlowRel (.upTo b) g) (execBlockL c ss env) (execBlockL c ss env')) :
    Agree s (RoundRel b (g.leave b.length)) (execScopeL c b.length ss env) (execScopeL c b.length ss env') := by
  rw [execScopeL, execScopeL]
  refine .bind h fun a b hab => ?_
  cases hab with
  | next h => exact .pure (.next (h.leave _))
  | @brk k hb e e' he =>
    cases hb
    exact .pure (.brk he)

/-- The second part of a pair. -/
def sndOf : Val → Res Val
  | .pair _ v => pure v
  | _ => stuck

theorem sndOf_like {v w : Val} (h : Like v w) : SameVal s (sndOf v) (sndOf w) := by
  cases h.cases with
  | pair _ h' => exact .ret h'
  | lit | bool | u8 | u32 | u64 | i64 | usize | bytes | words32 | words64 | struct => exact .panic _

theorem match_snd (v : Val) (x : String) (env : Env) :
    (match v with | .pair _ v => pure (.next ((x, v) :: env)) | _ => quiet stuck : LoggedOf ε Flow) =
      (quiet (sndOf v) >>= fun v => pure (.next ((x, v) :: env))) := by
  cases v <;> rfl

mutual
theorem labS_sound (hsig : SigOk s sig c) (hobs : Hides s c.obs) : (t : Stmt) → {brk : Brk} → (∀ _ : brk = .free, False) → {g g' : Labs} →
    {env env' : Env} → EnvRel g env env' → labS s sig t brk g = some g' → Agree s (FlowRel brk g') (execL c t env) (execL c t env')
  | .letVar x t e, brk, hb, g, g', env, env', henv, h => by
    rw [labS] at h
    replace h := opt_bind h
    obtain ⟨l, hl, h⟩ := h
    cases h
    rw [execL, execL]
    exact .bind (labE_sound hsig hobs henv t e hl) fun v w hv => .pure (.next (.cons x hv henv))
  | .letSnd x e, brk, hb, g, g', env, env', henv, h => by
    rw [labS] at h
    replace h := opt_bind h
    obtain ⟨l, hl, h⟩ := h
    replace h := opt_bind h
    obtain ⟨r, hr, h⟩ := h
    cases h
    rw [execL, execL]
    refine .bind (labE_sound hsig hobs henv none e hl) fun v w hv => ?_
    refine (congrArg₂ (Agree s _) (match_snd v x env) (match_snd w x env')).mpr ?_
    refine .bind (.quiet (R := Rel r) ?_) fun v w hv => .pure (.next (.cons x hv henv))
    exact grade_sound hr (fun hl => by rw [hv.eq hl]) fun _ hl => sndOf_like (hv.like hl)
  | .assign l e, brk, hb, g, g', env, env', henv, h => by
    rw [labS] at h
    replace h := opt_bind h
    obtain ⟨v, hv, h⟩ := h
    replace h := opt_bind h
    obtain ⟨pl, hpl, h⟩ := h
    obtain ⟨hs, hp⟩ := labP_sound hsig hobs henv l hpl
    rw [execL, execL]
    refine .bind (labE_sound hsig hobs henv none e hv) fun x y hxy => .bind hp fun a b hab => .note c (notes_rel hab hs hobs).2 ?_
    exact .bind (.quiet (write_rel henv hab h hxy)) fun e e' he => .pure (.next he)
  | .assignOp op l e, brk, hb, g, g', env, env', henv, h => by
    rw [labS] at h
    replace h := opt_bind h
    obtain ⟨v, hv, h⟩ := h
    replace h := opt_bind h
    obtain ⟨pl, hpl, h⟩ := h
    replace h := opt_bind h
    obtain ⟨o, ho, h⟩ := h
    replace h := opt_bind h
    obtain ⟨n, hn, h⟩ := h
    obtain ⟨hs, hp⟩ := labP_sound hsig hobs henv l hpl
    rw [execL, execL]
    refine .bind (labE_sound hsig hobs henv none e hv) fun x y hxy => .bind hp fun a b hab => .note c (notes_rel hab hs hobs).1 ?_
    refine .bind (.quiet (read_rel henv hab ho)) fun old old' hold => .note c (opNotes_rel hobs hn hold hxy) ?_
    refine .bind (.quiet (R := Rel n) (grade_sound hn (fun hl => ?_) fun ok hl => ?_)) fun z z' hz => .note c (notes_rel hab hs hobs).2 ?_
    · rw [hold.eq (join_pub hl).1, hxy.eq (join_pub hl).2]
    · exact binOp_ok c.u c.p op ok (hold.like (join_ne_any hl).1) (hxy.like (join_ne_any hl).2) fun hp => hxy.eq hp
    · exact .bind (.quiet (write_rel henv hab h hz)) fun e e' he => .pure (.next he)
  | .mutate l m args, brk, hb, g, g', env, env', henv, h => by
    rw [labS.eq_def] at h
    dsimp only at h
    split at h
    · obtain ⟨pl, hpl, h⟩ := opt_bind h
      replace h := opt_bind h
      obtain ⟨o, ho, h⟩ := h
      replace h := opt_bind h
      obtain ⟨y, hy, h⟩ := h
      replace h := opt_bind h
      obtain ⟨ls, hls, h⟩ := h
      replace h := opt_bind h
      obtain ⟨n, hn, h⟩ := h
      obtain ⟨hs, hp⟩ := labP_sound hsig hobs henv _ hpl
      rw [execL.eq_def, execL.eq_def]
      dsimp only
      refine .bind hp fun a b hab => .bind (.quiet (read_rel henv hab ho)) fun old old' hold => .bind (labE_sound hsig hobs henv none _ hy) fun x x' hx => ?_
      have hys : y ≠ .pub → s = false := fun hne => overwrite_lax hn (fun hc => hne hc.2) fun hj => hne (join_pub (join_pub hj).2).1
      refine .bind (.quiet (position_rel hx hys)) fun i j hij => .note c ?_ ?_
      · by_cases hyp : y = .pub
        · rw [hij hyp]
        · exact flat_one (hobs.part (hys hyp) _ _ _ _)
      have hpart : Same s (fun _ _ => True) (part old 0 i) (part old' 0 j) := by
        by_cases hc : o ≠ .any ∧ y = .pub
        · rw [hij hc.2]
          exact (part_like (hold.like hc.1) 0 j).mono fun _ _ _ => trivial
        · by_cases hj : o.join (y.join (joins ls)) = .pub
          · rw [hold.eq (join_pub hj).1, hij (join_pub (join_pub hj).2).1]
            exact .refl (fun _ => trivial) _
          · exact .lax (overwrite_lax hn hc hj) _ _
      refine .bind (.quiet hpart.keep) fun p q hpq => .bind (labL_sound hsig hobs henv args hls) fun vs ws hvs => ?_
      cases hvs with
      | nil => exact .quiet (.panic _)
      | @cons l ls v w vs ws hv hvs =>
        cases hvs with
        | cons _ _ => exact .quiet (.panic _)
        | nil =>
          have hn : labOverwrite s o y l = some n := by rwa [joins, joins, join_comm l .pub] at hn
          refine .bind (.quiet (overwrite_rel hn hold hij hpq.2.1 hpq.2.2 hv)) fun z z' hz => ?_
          exact .bind (.quiet (write_rel henv hab h hz)) fun e e' he => .pure (.next he)
    · rename_i hne
      replace h := opt_bind h
      obtain ⟨pl, hpl, h⟩ := h
      replace h := opt_bind h
      obtain ⟨ls, hls, h⟩ := h
      replace h := opt_bind h
      obtain ⟨o, ho, h⟩ := h
      replace h := opt_bind h
      obtain ⟨n, hn, h⟩ := h
      obtain ⟨hs, hp⟩ := labP_sound hsig hobs henv _ hpl
      rw [execL.eq_def, execL.eq_def]
      dsimp only
      split
      · exact (hne _ _ rfl rfl).elim
      · refine .bind hp fun a b hab => .bind (labL_sound hsig hobs henv args hls) fun vs ws hvs => .bind (.quiet (read_rel henv hab ho)) fun old old' hold => ?_
        refine .bind (.quiet (mutator_rel hn hold hvs)) fun z z' hz => ?_
        exact .bind (.quiet (write_rel henv hab h hz)) fun e e' he => .pure (.next he)
  | .panic, brk, hb, g, g', env, env', henv, h => by
    rw [execL, execL]
    exact .quiet (.panic _)
  | .ifElse b t e, brk, hb, g, g', env, env', henv, h => by
    rw [labS] at h
    replace h := opt_bind h
    obtain ⟨v, hv, h⟩ := h
    split at h
    · rename_i hc
      obtain ⟨rfl, hf⟩ := hc
      replace h := opt_bind h
      obtain ⟨g₁, h₁, h⟩ := h
      replace h := opt_bind h
      obtain ⟨g₂, h₂, h⟩ := h
      rw [execL, execL]
      refine .bind (labE_sound hsig hobs henv none b hv) fun x y hxy => ?_
      cases hxy
      rw [henv.length.1, henv.length.2]
      cases x with
      | bool b =>
        cases b with
        | true =>
          refine .note c rfl ((scope_rel (labB_sound hsig hobs t hb henv h₁) _ hf).mono fun a b hab => ?_)
          cases hab with
          | next he => exact .next (he.join_left h)
          | brk hb he => exact .brk hb he
        | false =>
          refine .note c rfl ((scope_rel (labB_sound hsig hobs e hb henv h₂) _ hf).mono fun a b hab => ?_)
          cases hab with
          | next he => exact .next (he.join_right h)
          | brk hb he => exact .brk hb he
      | lit | u8 | u32 | u64 | i64 | usize | bytes | words32 | words64 | pair | struct => exact .quiet (.panic _)
    · cases h
  | .forIn x lo hi incl body, brk, hb, g, g', env, env', henv, h => by
    rw [labS] at h
    replace h := opt_bind h
    obtain ⟨a, ha, h⟩ := h
    replace h := opt_bind h
    obtain ⟨b, hb', h⟩ := h
    split at h
    · rename_i hc
      obtain ⟨rfl, rfl⟩ := join_pub hc
      obtain ⟨k, hk, hstep⟩ := fixLab_step h
      replace hk := opt_bind hk
      obtain ⟨k', hk', hk⟩ := hk
      cases hk
      rw [execL, execL]
      refine .bind (labE_sound hsig hobs henv none lo ha) fun v w hv => .bind (labE_sound hsig hobs henv none hi hb') fun v' w' hv' => ?_
      cases hv
      cases hv'
      refine .bind (.quiet (.refl (R := Eq) (fun _ => rfl) _)) fun i j hij => .bind (.quiet (.refl (R := Eq) (fun _ => rfl) _)) fun i' j' hij' => ?_
      subst hij hij'
      refine .note c rfl (.bind (Agree.forLoop (R := EnvRel g') (fun n e e' he => ?_) _ _ (fixLab_start h henv)) fun e e' he => .pure (.next he))
      rw [he.length.1, he.length.2]
      refine .bind (scope_rel (labB_sound hsig hobs body (brk := .never) nofun (.cons x (show Rel .pub _ _ from rfl) he) hk') _ rfl) fun f f' hf => ?_
      cases hf with
      | next hf => exact .pure (hstep _ _ hf)
      | brk hb _ => cases hb
    · cases h
  | .loop body, brk, hb, g, g', env, env', henv, h => by
    rw [labS] at h
    replace h := opt_bind h
    obtain ⟨k, hk, h⟩ := h
    replace h := opt_bind h
    obtain ⟨k', hk', h⟩ := h
    split at h
    · rename_i hj
      cases h
      rw [execL, execL]
      refine .bind (Agree.loop (P := EnvRel g') (Q := EnvRel g') (fun e e' he => ?_) (fixLab_start hk henv)) fun e e' he => .pure (.next he)
      rw [he.length.1, he.length.2]
      refine .bind (round_rel (labB_sound hsig hobs body (brk := .upTo g') nofun he hk')) fun f f' hf => ?_
      cases hf with
      | next hf => exact .pure (.inl ⟨_, _, rfl, rfl, hf.join_right hj⟩)
      | brk hf => exact .pure (.inr ⟨_, _, rfl, rfl, hf⟩)
    · cases h
  | .break, brk, hb, g, g', env, env', henv, h => by
    rw [labS] at h
    split at h
    · rename_i hok
      cases h
      rw [execL, execL]
      cases brk with
      | never => cases hok
      | free => exact (hb rfl).elim
      | upTo b =>
        refine .pure (.brk rfl ?_)
        exact (henv.leave _).join_right (by simpa [Brk.ok] using hok)
    · cases h

theorem labB_sound (hsig : SigOk s sig c) (hobs : Hides s c.obs) : (ss : List Stmt) → {brk : Brk} → (∀ _ : brk = .free, False) → {g g' : Labs} →
    {env env' : Env} → EnvRel g env env' → labB s sig ss brk g = some g' → Agree s (FlowRel brk g') (execBlockL c ss env) (execBlockL c ss env')
  | [], brk, hb, g, g', env, env', henv, h => by
    rw [labB] at h
    cases h
    rw [execBlockL, execBlockL]
    exact .pure (.next henv)
  | t :: ss, brk, hb, g, g', env, env', henv, h => by
    rw [labB] at h
    replace h := opt_bind h
    obtain ⟨k, hk, h⟩ := h
    rw [execBlockL, execBlockL]
    refine .bind (labS_sound hsig hobs t hb henv hk) fun a b hab => ?_
    cases hab with
    | next he => exact labB_sound hsig hobs ss hb he h
    | brk hb he => exact .pure (.brk hb he)
end

/-! ## Functions -/

theorem labArgs_sound : (ps : List (String × Ty)) → {ls : List Label} → {g : Labs} → labArgs s ps ls = some g → {vs ws : List Val} → ArgsRel ls vs ws →
    Same s (EnvRel g) (bindArgs ps vs) (bindArgs ps ws)
  | [], ls, g, h, vs, ws, ha => by
    cases ha with
    | nil => cases h; exact .ret .nil
    | cons _ _ => cases h
  | (x, t) :: ps, ls, g, h, vs, ws, ha => by
    cases ha with
    | nil => cases h
    | cons hv ha =>
      replace h := opt_bind h
      obtain ⟨l, hl, h⟩ := h
      replace h := opt_bind h
      obtain ⟨k, hk, h⟩ := h
      cases h
      exact .bind (asTy_rel hl _ hv) fun v w hv => .bind (labArgs_sound ps hk ha) fun e e' he => .ret (.cons x hv he)

theorem labFn_sound (hsig : SigOk s sig c) (hobs : Hides s c.obs) {f : Fn} {ls : List Label} {r : Label} (h : labFn s sig f ls = some r)
    {vs ws : List Val} (ha : ArgsRel ls vs ws) : Agree s (Rel r) (runFnL c f vs) (runFnL c f ws) := by
  replace h := opt_bind h
  obtain ⟨g, hg, h⟩ := h
  replace h := opt_bind h
  obtain ⟨k, hk, h⟩ := h
  unfold runFnL
  refine .bind (.quiet (labArgs_sound f.params hg ha)) fun e e' he => .bind (labB_sound hsig hobs f.body (brk := .never) nofun he hk) fun a b hab => ?_
  cases hab with
  | next he => exact labE_sound hsig hobs he _ _ h
  | brk hb _ => cases hb

/-- A function of another crate, applied to arguments. -/
def digest (h : Option (List U8 → List U8)) (args : List Val) : Res Val :=
  match h, args with
  | some h, [.bytes xs] => pure (.bytes (h xs))
  | _, _ => stuck

theorem digest_cases (h : Option (List U8 → List U8)) (args : List Val) :
    digest h args = throw .stuck ∨ ∃ g xs, h = some g ∧ args = [.bytes xs] ∧ digest h args = pure (.bytes (g xs)) := by
  unfold digest
  split
  · exact .inr ⟨_, _, rfl, rfl, rfl⟩
  · exact .inl rfl

theorem digest_rel {ext : String → Option (List U8 → List U8)} (hext : FixedSize ext) (f : String) {ls : List Label} {r : Label}
    (h : labDigest s (joins ls) = some r) {vs ws : List Val} (ha : ArgsRel ls vs ws) : Same s (Rel r) (digest (ext f) vs) (digest (ext f) ws) := by
  have both : ∀ g, ext f = some g → ∀ xs ys, Like (.bytes (g xs)) (.bytes (g ys)) := fun g hg xs ys => bytes_like.2 (hext f g hg xs ys)
  cases hl : joins ls with
  | pub =>
    rw [hl] at h
    cases h
    rw [ha.eq hl]
    exact .refl (fun _ => rfl) _
  | sec =>
    rw [hl] at h
    cases h
    have hls := ha.like (by rw [hl]; decide)
    rcases digest_cases (ext f) vs with h1 | ⟨g, xs, hg, rfl, h1⟩ <;> rcases digest_cases (ext f) ws with h2 | ⟨g', ys, hg', rfl, h2⟩
    · rw [h1, h2]; exact .panic _
    · exfalso
      cases hls with
      | cons hv hvs =>
        cases hvs with
        | nil =>
          cases hv.cases with
          | bytes _ => rw [hg'] at h1; cases h1
    · exfalso
      cases hls with
      | cons hv hvs =>
        cases hvs with
        | nil =>
          cases hv.cases with
          | bytes _ => rw [hg] at h2; cases h2
    · rw [h1, h2]
      cases hg.symm.trans hg'
      exact .ret (both g hg xs ys)
  | any =>
    rw [hl] at h
    unfold labDigest at h
    split at h
    · split at h
      · cases h
      · rename_i hs
        have hs : s = false := by simpa using hs
        cases h
        rcases digest_cases (ext f) vs with h1 | ⟨g, xs, hg, -, h1⟩
        · exact .left hs (by rw [h1]; exact fun a h => nomatch h)
        · rcases digest_cases (ext f) ws with h2 | ⟨g', ys, hg', -, h2⟩
          · exact .right hs (by rw [h2]; exact fun a h => nomatch h)
          · rw [h1, h2]
            cases hg.symm.trans hg'
            exact .ret (both g hg xs ys)
    · rename_i hne
      exact (hne rfl).elim

theorem labCall_sound {obs : Access → List ε} (hobs : Hides s obs) (fns : List Fn) {ext : String → Option (List U8 → List U8)} (hext : FixedSize ext)
    (u : Nat) (p : Profile) (n : Nat) {f : String} {ls : List Label} {r : Label} (h : labCall s fns n f ls = some r) (d : Nat) {vs ws : List Val}
    (ha : ArgsRel ls vs ws) : Agree s (Rel r) (callL obs fns ext u p d f vs) (callL obs fns ext u p d f ws) := by
  induction n generalizing f ls r d vs ws with
  | zero => cases h
  | succ n ih =>
    cases d with
    | zero => exact .quiet .never
    | succ d =>
      unfold labCall at h
      unfold callL
      split at h
      · rename_i fn hfn
        rw [hfn]
        exact labFn_sound (fun f ls l vs ws h ha => ih h d ha) hobs h ha
      · rename_i hfn
        rw [hfn]
        exact .quiet (digest_rel hext f h ha)

end Source

import Verif.Proofs.SoundOps

/-! Well-typed programs of the fragment compute values of their types. -/

namespace Proofs.Sound
open Source Rust

/-- What the typing rules rely on besides the types: a name stands for one struct, and names of functions do not clash. -/
structure Names (S : Items) : Prop where
  structs : ∀ n ds ds', (n, ds) ∈ S.structs → (n, ds') ∈ S.structs → ds = ds'
  fns : ∀ d ∈ S.fns, d.name ≠ "Vec::with_capacity"
  ext : ∀ x ∈ S.ext, x ≠ "Vec::with_capacity"

/-- Calls yield values of the declared types, and `usize` has at least 32 bits. -/
structure CallsOf (S : Items) (c : Ctx) : Prop where
  width : 32 ≤ c.u
  fns : ∀ d ∈ S.fns, ∀ vs, ValsOf c.u S.structs vs d.params → Ret (c.call d.name vs) (Val.IsOf c.u S.structs · (.ty d.ret))
  ext : ∀ x ∈ S.ext, ∀ vs, ValsOf c.u S.structs vs [.vec .u8] → Ret (c.call x vs) (Val.IsOf c.u S.structs · (.ty (.vec .u8)))

variable {S : Items} {c : Ctx}

theorem env_get {env : Env} {g : Types} {x : String} {k : Kind} (h : Env.IsOf c.u S.structs env g) (hx : g.lookup x = some k) :
    Ret (Env.get x env) (Val.IsOf c.u S.structs · k) := by
  induction env generalizing g with
  | nil => exact .stuck
  | cons a env ih =>
    obtain ⟨y, v⟩ := a
    rw [Env.IsOf] at h
    obtain ⟨k', g', rfl, hv, hg⟩ := h
    rw [Env.get]
    rw [List.lookup_cons] at hx
    split
    · rename_i he
      subst he
      simp only [beq_self_eq_true] at hx
      cases hx
      exact .pure hv
    · rename_i he
      rw [beq_false_of_ne he] at hx
      exact ih hg hx

theorem env_set {env : Env} {g : Types} {x : String} {k : Kind} {v : Val} (h : Env.IsOf c.u S.structs env g) (hx : g.lookup x = some k)
    (hv : v.IsOf c.u S.structs k) : Ret (Env.set x v env) (Env.IsOf c.u S.structs · g) := by
  induction env generalizing g with
  | nil => exact .stuck
  | cons a env ih =>
    obtain ⟨y, w⟩ := a
    rw [Env.IsOf] at h
    obtain ⟨k', g', rfl, hw, hg⟩ := h
    rw [Env.set]
    rw [List.lookup_cons] at hx
    split
    · rename_i he
      subst he
      simp only [beq_self_eq_true] at hx
      cases hx
      exact .pure (by rw [Env.IsOf]; exact ⟨_, _, rfl, hv, hg⟩)
    · rename_i he
      rw [beq_false_of_ne he] at hx
      exact (ih hg hx).bind fun e he => .pure (by rw [Env.IsOf]; exact ⟨_, _, rfl, hw, he⟩)

theorem fields_get {fs : Env} {ds : List (String × Ty)} {x : String} {t : Ty} (h : FieldsOf c.u S.structs fs ds) (hx : ds.lookup x = some t) :
    Ret (Env.get x fs) (Val.IsOf c.u S.structs · (.ty t)) := by
  induction fs generalizing ds with
  | nil => exact .stuck
  | cons a fs ih =>
    obtain ⟨y, v⟩ := a
    rw [FieldsOf] at h
    obtain ⟨k', g', rfl, hv, hg⟩ := h
    rw [Env.get]
    rw [List.lookup_cons] at hx
    split
    · rename_i he
      subst he
      simp only [beq_self_eq_true] at hx
      cases hx
      exact .pure hv
    · rename_i he
      rw [beq_false_of_ne he] at hx
      exact ih hg hx

theorem fields_set {fs : Env} {ds : List (String × Ty)} {x : String} {t : Ty} {v : Val} (h : FieldsOf c.u S.structs fs ds)
    (hx : ds.lookup x = some t) (hv : v.IsOf c.u S.structs (.ty t)) : Ret (Env.set x v fs) (FieldsOf c.u S.structs · ds) := by
  induction fs generalizing ds with
  | nil => exact .stuck
  | cons a fs ih =>
    obtain ⟨y, w⟩ := a
    rw [FieldsOf] at h
    obtain ⟨k', g', rfl, hw, hg⟩ := h
    rw [Env.set]
    rw [List.lookup_cons] at hx
    split
    · rename_i he
      subst he
      simp only [beq_self_eq_true] at hx
      cases hx
      exact .pure (by rw [FieldsOf]; exact ⟨_, _, rfl, hv, hg⟩)
    · rename_i he
      rw [beq_false_of_ne he] at hx
      exact (ih hg hx).bind fun e he => .pure (by rw [FieldsOf]; exact ⟨_, _, rfl, hw, he⟩)

theorem getField_isOf (hS : Names S) {v : Val} {n x : String} {ds : List (String × Ty)} {t : Ty} (h : v.IsOf c.u S.structs (.ty (.struct n)))
    (hd : (n, ds) ∈ S.structs) (hx : ds.lookup x = some t) : Ret (getField x v) (Val.IsOf c.u S.structs · (.ty t)) := by
  unfold getField
  split
  · rw [Val.IsOf] at h
    obtain ⟨n', ds', hd', hf, he⟩ := h
    cases he
    rw [hS.structs _ _ _ hd' hd] at hf
    exact fields_get hf hx
  · exact .stuck

theorem setField_isOf (hS : Names S) {v w : Val} {n x : String} {ds : List (String × Ty)} {t : Ty}
    (h : v.IsOf c.u S.structs (.ty (.struct n))) (hd : (n, ds) ∈ S.structs) (hx : ds.lookup x = some t) (hw : w.IsOf c.u S.structs (.ty t)) :
    Ret (setField x w v) (Val.IsOf c.u S.structs · (.ty (.struct n))) := by
  unfold setField
  split
  · rw [Val.IsOf] at h
    obtain ⟨n', ds', hd', hf, he⟩ := h
    cases he
    rw [hS.structs _ _ _ hd' hd] at hf
    exact (fields_set hf hx hw).bind fun fs h => .pure (by rw [Val.IsOf]; exact ⟨_, _, hd, h, rfl⟩)
  · exact .stuck

mutual
theorem eval_isOf (hS : Names S) (hc : CallsOf S c) {env : Env} {g : Types} (hg : Env.IsOf c.u S.structs env g) :
    (e : Expr) → (want : Option Ty) → (k : Kind) → HasType S g e k → (∀ t, want = some t → Passes k t) →
      Ret (eval c env want e) (Val.IsOf c.u S.structs · k)
  | .lit n, want, k, h, hw => by
    rw [HasType] at h
    obtain ⟨t, -, rfl⟩ := h
    rw [eval]
    exact asTy_isOf hc.width (by rw [Val.IsOf]; exact ⟨t, rfl⟩) hw
  | .var x, want, k, h, hw => by
    rw [HasType] at h
    rw [eval]
    exact (env_get hg h).bind fun v hv => asTy_isOf hc.width hv hw
  | .const x, want, k, h, hw => by
    rw [HasType] at h
    obtain ⟨f, hf, rfl, hp, rfl⟩ := h
    rw [eval]
    exact hc.fns f hf [] (by rw [ValsOf]; exact hp)
  | .neg e, want, k, h, hw => by
    rw [HasType] at h
    obtain ⟨h, rfl⟩ := h
    rw [eval]
    exact (eval_isOf hS hc hg e none _ h nofun).bind fun v hv => (negate_isOf c.p v).bind fun w hw' => asTy_isOf hc.width hw' hw
  | .bin op a b, want, k, h, hw => by
    rw [HasType] at h
    obtain ⟨t, ha, h⟩ := h
    have hk : k = opKind op t := by
      cases op <;> exact h.2
    rw [eval]
    refine (eval_isOf hS hc hg a none _ ha nofun).bind fun x hx => ?_
    have hb : Ret (eval c env none b) fun y => op ≠ .shl → op ≠ .shr → y.IsOf c.u S.structs (.int t) := by
      intro y hy h1 h2
      have hb : HasType S g b (.int t) := by
        cases op <;> first | exact h.1 | exact absurd rfl h1 | exact absurd rfl h2
      exact eval_isOf hS hc hg b none _ hb nofun y hy
    refine hb.bind fun y hy => (binOp_isOf hc.width c.p op hx hy).bind fun z hz => ?_
    rw [← hk] at hz
    exact asTy_isOf hc.width hz hw
  | .cast e t, want, k, h, hw => by
    rw [HasType] at h
    obtain ⟨-, rfl⟩ := h
    rw [eval]
    exact (Ret.triv).bind fun v _ => (Ret.triv).bind fun n _ => .pure (castTo_isOf _ _)
  | .index e i, want, k, h, hw => by
    rw [HasType] at h
    obtain ⟨s, t, he, hs, -, rfl⟩ := h
    rw [eval]
    exact (eval_isOf hS hc hg e none _ he nofun).bind fun v hv => (Ret.triv).bind fun _ _ => (Ret.triv).bind fun _ _ => item_isOf hv hs _
  | .slice e lo hi, want, k, h, hw => by
    rw [HasType] at h
    obtain ⟨s, t, he, hs, -, -, rfl⟩ := h
    rw [eval]
    exact (eval_isOf hS hc hg e none _ he nofun).bind fun v hv => (Ret.triv).bind fun _ _ => (Ret.triv).bind fun _ _ =>
      (Ret.triv).bind fun _ _ => (Ret.triv).bind fun _ _ => part_isOf hv hs _ _
  | .prefix e hi, want, k, h, hw => by
    rw [HasType] at h
    obtain ⟨s, t, he, hs, -, rfl⟩ := h
    rw [eval]
    exact (eval_isOf hS hc hg e none _ he nofun).bind fun v hv => (Ret.triv).bind fun _ _ => (Ret.triv).bind fun _ _ => part_isOf hv hs _ _
  | .field e x, want, k, h, hw => by
    rw [HasType] at h
    obtain ⟨n, ds, t, he, hd, hx, rfl⟩ := h
    rw [eval]
    exact (eval_isOf hS hc hg e none _ he nofun).bind fun v hv => getField_isOf hS hv hd hx
  | .call f es, want, k, h, hw => by
    rw [HasType] at h
    rw [eval]
    rcases h with ⟨rfl, -, t, rfl⟩ | ⟨d, hd, rfl, hes, rfl⟩ | ⟨hf, hes, rfl⟩
    · refine (Ret.triv).bind fun vs _ => ?_
      rw [if_pos rfl]
      exact listed_isOf (.inl ⟨rfl, t, rfl⟩) hw
    · refine (evalList_isOf hS hc hg es _ hes).bind fun vs hvs => ?_
      rw [if_neg (hS.fns d hd)]
      exact hc.fns d hd vs hvs
    · refine (evalList_isOf hS hc hg es _ hes).bind fun vs hvs => ?_
      rw [if_neg (hS.ext f hf)]
      exact hc.ext f hf vs hvs
  | .method e m es, want, k, h, hw => by
    rw [HasType] at h
    obtain ⟨s, ts, he, hm, -⟩ := h
    rw [eval]
    exact (eval_isOf hS hc hg e none _ he nofun).bind fun v hv => (Ret.triv).bind fun _ _ => applyMethod_isOf hc.width hv hm
  | .vecOf x n, want, k, h, hw => by
    rw [HasType] at h
    obtain ⟨t, -, -, rfl⟩ := h
    rw [eval]
    exact (Ret.triv).bind fun _ _ => (Ret.triv).bind fun _ _ => (Ret.triv).bind fun _ _ => repeated_isOf (.inl rfl) hw
  | .arrayOf x n, want, k, h, hw => by
    rw [HasType] at h
    obtain ⟨t, -, rfl⟩ := h
    rw [eval]
    exact (Ret.triv).bind fun _ _ => repeated_isOf (.inr rfl) hw
  | .list es, want, k, h, hw => by
    rw [HasType] at h
    rw [eval]
    refine (evalList_length es).bind fun vs hl => listed_isOf ?_ hw
    rcases h with ⟨rfl, ht⟩ | ⟨hn, t, -, rfl⟩
    · exact .inl ⟨List.length_eq_zero_iff.mp hl, ht⟩
    · refine .inr ⟨?_, t, by rw [hl]⟩
      rintro rfl
      exact hn (List.length_eq_zero_iff.mp hl.symm)
  | .struct ds es, want, k, h, hw => by
    rw [HasType] at h
    obtain ⟨n, hd, hes, rfl⟩ := h
    rw [eval]
    exact (evalFields_isOf hS hc hg es ds hes).bind fun fs hf => .pure (by rw [Val.IsOf]; exact ⟨n, ds, hd, hf, rfl⟩)

theorem evalList_isOf (hS : Names S) (hc : CallsOf S c) {env : Env} {g : Types} (hg : Env.IsOf c.u S.structs env g) :
    (es : List Expr) → (ts : List Ty) → HasTypes S g es ts → Ret (evalList c env es) (ValsOf c.u S.structs · ts)
  | [], ts, h => by
    rw [HasTypes] at h
    rw [evalList]
    exact .pure (by rw [ValsOf]; exact h)
  | e :: es, ts, h => by
    rw [HasTypes] at h
    obtain ⟨t, ts', rfl, ⟨k, he, hp⟩, hes⟩ := h
    rw [evalList]
    exact (eval_isOf hS hc hg e none k he nofun).bind fun v hv => (evalList_isOf hS hc hg es ts' hes).bind fun vs hvs =>
      .pure (by rw [ValsOf]; exact ⟨t, ts', rfl, isOf_passes hv hp, hvs⟩)

theorem evalFields_isOf (hS : Names S) (hc : CallsOf S c) {env : Env} {g : Types} (hg : Env.IsOf c.u S.structs env g) :
    (es : List Expr) → (ds : List (String × Ty)) → HasTypes S g es (ds.map (·.2)) → Ret (evalFields c env ds es) (FieldsOf c.u S.structs · ds)
  | [], ds, h => by
    rw [HasTypes, List.map_eq_nil_iff] at h
    rw [evalFields]
    exact .pure (by rw [FieldsOf]; exact h)
  | e :: es, [], h => by
    rw [evalFields]
    exact .stuck
  | e :: es, (x, t) :: ds, h => by
    rw [HasTypes] at h
    obtain ⟨t', ts', ht, ⟨k, he, hp⟩, hes⟩ := h
    cases ht
    rw [evalFields]
    exact (eval_isOf hS hc hg e (some t) k he (fun _ h => by cases h; exact hp)).bind fun v hv => (evalFields_isOf hS hc hg es ds hes).bind
      fun vs hvs => .pure (by rw [FieldsOf]; exact ⟨t, ds, rfl, isOf_passes hv hp, hvs⟩)

theorem evalList_length {env : Env} : (es : List Expr) → Ret (evalList c env es) fun vs => vs.length = es.length
  | [] => by rw [evalList]; exact .pure rfl
  | e :: es => by
    rw [evalList]
    exact (Ret.triv).bind fun v _ => (evalList_length es).bind fun vs h => .pure (by rw [List.length_cons, List.length_cons, h])
end

/-- The steps lead from a value of the first type to a part of the second type. -/
def StepsTo (S : Items) : List Step → Kind → Kind → Prop
  | [], a, b => a = b
  | .index _ :: st, a, b => ∃ t, IsSeq a t ∧ StepsTo S st (.int t) b
  | .field f :: st, a, b => ∃ n ds t, a = .ty (.struct n) ∧ (n, ds) ∈ S.structs ∧ ds.lookup f = some t ∧ StepsTo S st (.ty t) b

theorem stepsTo_append {a b d : Kind} {st st' : List Step} (h : StepsTo S st a b) (h' : StepsTo S st' b d) :
    StepsTo S (st ++ st') a d := by
  induction st generalizing a with
  | nil => rw [StepsTo] at h; subst h; exact h'
  | cons s st ih =>
    cases s with
    | index i =>
      obtain ⟨t, ht, h⟩ := h
      exact ⟨t, ht, ih h⟩
    | field f =>
      obtain ⟨n, ds, t, h1, h2, h3, h⟩ := h
      exact ⟨n, ds, t, h1, h2, h3, ih h⟩

theorem place_isOf {env : Env} {g : Types} (l : Expr) (k : Kind) (h : HasType S g l k) :
    Ret (place c env l) fun pl => ∃ a, g.lookup pl.1 = some a ∧ StepsTo S pl.2 a k := by
  induction l using place.induct generalizing k with
  | case1 x =>
    rw [HasType] at h
    rw [place]
    exact .pure ⟨k, h, rfl⟩
  | case2 e i ih =>
    rw [HasType] at h
    obtain ⟨s, t, he, hs, -, rfl⟩ := h
    rw [place]
    refine (ih _ he).bind fun pl ⟨a, ha, hst⟩ => (Ret.triv).bind fun _ _ => (Ret.triv).bind fun _ _ => .pure ?_
    exact ⟨a, ha, stepsTo_append hst ⟨t, hs, rfl⟩⟩
  | case3 e f ih =>
    rw [HasType] at h
    obtain ⟨n, ds, t, he, hd, hx, rfl⟩ := h
    rw [place]
    refine (ih _ he).bind fun pl ⟨a, ha, hst⟩ => .pure ?_
    exact ⟨a, ha, stepsTo_append hst ⟨n, ds, t, rfl, hd, hx, rfl⟩⟩
  | case4 e h1 h2 h3 =>
    rw [place.eq_4 _ _ _ h1 h2 h3]
    exact .stuck

theorem readSteps_isOf (hS : Names S) {st : List Step} {a b : Kind} {v : Val} (h : StepsTo S st a b) (hv : v.IsOf c.u S.structs a) :
    Ret (readSteps st v) (Val.IsOf c.u S.structs · b) := by
  induction st generalizing a v with
  | nil => rw [StepsTo] at h; subst h; exact .pure hv
  | cons s st ih =>
    cases s with
    | index i =>
      obtain ⟨t, ht, h⟩ := h
      exact (item_isOf hv ht i).bind fun w hw => ih h hw
    | field f =>
      obtain ⟨n, ds, t, rfl, h2, h3, h⟩ := h
      exact (getField_isOf hS hv h2 h3).bind fun w hw => ih h hw

theorem writeSteps_isOf (hS : Names S) (hu : 32 ≤ c.u) {st : List Step} {a b : Kind} {v new : Val} (h : StepsTo S st a b) (hv : v.IsOf c.u S.structs a)
    (hn : new.IsOf c.u S.structs b) : Ret (writeSteps new st v) (Val.IsOf c.u S.structs · a) := by
  induction st generalizing a v with
  | nil =>
    rw [StepsTo] at h
    subst h
    rw [writeSteps]
    exact likeOld_isOf hu hv hn
  | cons s st ih =>
    cases s with
    | index i =>
      rw [writeSteps]
      split
      · exact setItem_isOf hv i
      · exact .stuck
    | field f =>
      obtain ⟨n, ds, t, rfl, h2, h3, h⟩ := h
      rw [writeSteps]
      exact (getField_isOf hS hv h2 h3).bind fun w hw => (ih h hw).bind fun w' hw' => setField_isOf hS hv h2 h3 hw'

/-- The place is a part of type `k` of a variable. -/
def PlaceOf (S : Items) (g : Types) (k : Kind) (pl : String × List Step) : Prop := ∃ a, g.lookup pl.1 = some a ∧ StepsTo S pl.2 a k

theorem readPlace_isOf (hS : Names S) {env : Env} {g : Types} {k : Kind} {pl : String × List Step} (hg : Env.IsOf c.u S.structs env g)
    (h : PlaceOf S g k pl) : Ret (readPlace env pl) (Val.IsOf c.u S.structs · k) := by
  obtain ⟨a, ha, hst⟩ := h
  exact (env_get hg ha).bind fun v hv => readSteps_isOf hS hst hv

theorem writePlace_isOf (hS : Names S) (hu : 32 ≤ c.u) {env : Env} {g : Types} {k : Kind} {pl : String × List Step} {v : Val}
    (hg : Env.IsOf c.u S.structs env g) (h : PlaceOf S g k pl) (hv : v.IsOf c.u S.structs k) :
    Ret (writePlace env pl v) (Env.IsOf c.u S.structs · g) := by
  obtain ⟨a, ha, hst⟩ := h
  exact (env_get hg ha).bind fun w hw => (writeSteps_isOf hS hu hst hw hv).bind fun w' hw' => env_set hg ha hw'

theorem env_length {env : Env} {g : Types} (h : Env.IsOf c.u S.structs env g) : env.length = g.length := by
  induction env generalizing g with
  | nil => rw [Env.IsOf] at h; rw [h]; rfl
  | cons a env ih =>
    obtain ⟨x, v⟩ := a
    rw [Env.IsOf] at h
    obtain ⟨k, g', rfl, -, h⟩ := h
    rw [List.length_cons, List.length_cons, ih h]

theorem env_drop {env : Env} {pre g : Types} (h : Env.IsOf c.u S.structs env (pre ++ g)) : Env.IsOf c.u S.structs (env.drop pre.length) g := by
  induction pre generalizing env with
  | nil => exact h
  | cons a pre ih =>
    cases env with
    | nil => rw [Env.IsOf] at h; cases h
    | cons b env =>
      obtain ⟨x, v⟩ := b
      rw [Env.IsOf] at h
      obtain ⟨k, g', he, -, h⟩ := h
      cases he
      exact ih h

theorem env_leave {env : Env} {pre g : Types} {n : Nat} (hn : n = g.length) (h : Env.IsOf c.u S.structs env (pre ++ g)) :
    Env.IsOf c.u S.structs (env.leave n) g := by
  rw [Env.leave, env_length h, List.length_append, hn, Nat.add_sub_cancel]
  exact env_drop h

mutual
theorem okStmt_ext {b : Bool} {g h : Types} : (s : Stmt) → OkStmt S b g s h → ∃ pre, h = pre ++ g
  | .letVar x (some t) e, hs => by rw [OkStmt] at hs; exact ⟨[_], hs.2⟩
  | .letVar x none e, hs => by rw [OkStmt] at hs; obtain ⟨k, -, rfl⟩ := hs; exact ⟨[_], rfl⟩
  | .letSnd x e, hs => by rw [OkStmt] at hs; obtain ⟨k, -, rfl⟩ := hs; exact ⟨[_], rfl⟩
  | .assign l e, hs => by rw [OkStmt] at hs; exact ⟨[], hs.2.2⟩
  | .assignOp op l e, hs => by rw [OkStmt] at hs; exact ⟨[], hs.2.2⟩
  | .mutate l m es, hs => by rw [OkStmt] at hs; exact ⟨[], hs.2.2⟩
  | .panic, hs => by rw [OkStmt] at hs; exact ⟨[], hs⟩
  | .ifElse c t e, hs => by rw [OkStmt] at hs; exact ⟨[], hs.2.2.2⟩
  | .forIn x lo hi i body, hs => by rw [OkStmt] at hs; exact ⟨[], hs.2⟩
  | .loop body, hs => by rw [OkStmt] at hs; exact ⟨[], hs.2⟩
  | .break, hs => by rw [OkStmt] at hs; exact ⟨[], hs.2⟩
end

theorem okBlock_ext {b : Bool} (ss : List Stmt) {g h : Types} (hs : OkBlock S b g ss h) : ∃ pre, h = pre ++ g := by
  induction ss generalizing g with
  | nil => rw [OkBlock] at hs; exact ⟨[], hs⟩
  | cons s ss ih =>
    rw [OkBlock] at hs
    obtain ⟨h', h1, h2⟩ := hs
    obtain ⟨pre, rfl⟩ := okStmt_ext s h1
    obtain ⟨pre', rfl⟩ := ih h2
    exact ⟨pre' ++ pre, by rw [List.append_assoc]⟩

/-- How a statement that is well typed can end. -/
def FlowOf (c : Ctx) (S : Items) (g h : Types) : Flow → Prop
  | .next env => Env.IsOf c.u S.structs env h
  | .brk env => ∃ pre, Env.IsOf c.u S.structs env (pre ++ g)

/-- How the block of a scope with the outer variables `g` can end. -/
def ScopeOf (c : Ctx) (S : Items) (g : Types) : Flow → Prop
  | .next env => Env.IsOf c.u S.structs env g
  | .brk env => Env.IsOf c.u S.structs env g

theorem ScopeOf.flow {g : Types} (fl : Flow) (h : ScopeOf c S g fl) : FlowOf c S g g fl := by
  cases fl with
  | next env => exact h
  | brk env => exact ⟨[], h⟩

mutual
theorem exec_isOf (hS : Names S) (hc : CallsOf S c) : (s : Stmt) → (b : Bool) → (g h : Types) → (env : Env) → OkStmt S b g s h →
    Env.IsOf c.u S.structs env g → Ret (exec c s env) (FlowOf c S g h)
  | .letVar x (some t) e, b, g, h, env, hs, hg => by
    rw [OkStmt] at hs
    obtain ⟨⟨k, he, hp⟩, rfl⟩ := hs
    rw [exec]
    exact (eval_isOf hS hc hg e (some t) k he (fun _ h => by cases h; exact hp)).bind fun v hv =>
      .pure (by rw [FlowOf, Env.IsOf]; exact ⟨_, _, rfl, isOf_passes hv hp, hg⟩)
  | .letVar x none e, b, g, h, env, hs, hg => by
    rw [OkStmt] at hs
    obtain ⟨k, he, rfl⟩ := hs
    rw [exec]
    exact (eval_isOf hS hc hg e none k he nofun).bind fun v hv => .pure (by rw [FlowOf, Env.IsOf]; exact ⟨_, _, rfl, hv, hg⟩)
  | .letSnd x e, b, g, h, env, hs, hg => by
    rw [OkStmt] at hs
    obtain ⟨t, he, rfl⟩ := hs
    rw [exec]
    refine (eval_isOf hS hc hg e none _ he nofun).bind fun v hv => ?_
    split
    · rw [Val.IsOf] at hv
      obtain ⟨t', -, h2, h3⟩ := hv
      cases h3
      exact .pure (by rw [FlowOf, Env.IsOf]; exact ⟨_, _, rfl, h2, hg⟩)
    · exact .stuck
  | .assign l e, b, g, h, env, hs, hg => by
    rw [OkStmt] at hs
    obtain ⟨-, ⟨k, hl, he⟩, rfl⟩ := hs
    rw [exec]
    exact (eval_isOf hS hc hg e none k he nofun).bind fun v hv => (place_isOf l k hl).bind fun pl hpl =>
      (writePlace_isOf hS hc.width hg hpl hv).bind fun env' he' => .pure he'
  | .assignOp op l e, b, g, h, env, hs, hg => by
    rw [OkStmt] at hs
    obtain ⟨-, ⟨k, hl, he⟩, rfl⟩ := hs
    have he' := he
    rw [HasType] at he'
    obtain ⟨t, ht, hb⟩ := he'
    have hk : k = opKind op t := by
      cases op <;> exact hb.2
    rw [exec]
    have hv : Ret (eval c env none e) fun y => op ≠ .shl → op ≠ .shr → y.IsOf c.u S.structs (.int t) := by
      intro y hy h1 h2
      have hb : HasType S h e (.int t) := by
        cases op <;> first | exact hb.1 | exact absurd rfl h1 | exact absurd rfl h2
      exact eval_isOf hS hc hg e none _ hb nofun y hy
    have hp : Ret (place c env l) fun pl => PlaceOf S h k pl ∧ PlaceOf S h (.int t) pl :=
      fun pl hpl => ⟨place_isOf l k hl pl hpl, place_isOf l _ ht pl hpl⟩
    refine hv.bind fun v hv => hp.bind fun pl ⟨hpl, hpl'⟩ => (readPlace_isOf hS hg hpl').bind fun old ho =>
      (binOp_isOf hc.width c.p op ho hv).bind fun w hw => ?_
    rw [← hk] at hw
    exact (writePlace_isOf hS hc.width hg hpl hw).bind fun env' he' => .pure he'
  | .mutate l m es, b, g, h, env, hs, hg => by
    rw [OkStmt] at hs
    obtain ⟨-, ⟨k, ts, hl, hm, hes⟩, rfl⟩ := hs
    by_cases hx : ∃ l' hi, l = .prefix l' hi ∧ m = "clone_from_slice"
    · obtain ⟨l, hi, rfl, rfl⟩ := hx
      rw [exec]
      rw [HasType] at hl
      obtain ⟨s, t, hl, hs, -, rfl⟩ := hl
      refine (place_isOf l s hl).bind fun pl hpl => (readPlace_isOf hS hg hpl).bind fun old ho => (Ret.triv).bind fun x _ =>
        (Ret.triv).bind fun n _ => ?_
      have hp : Ret (part old 0 n) fun p => part old 0 n = pure p := fun p h => h
      refine hp.bind fun p hp => (Ret.triv).bind fun vs _ => ?_
      split
      · exact (overwrite_isOf ho hp).bind fun w hw => (writePlace_isOf hS hc.width hg hpl hw).bind fun env' he' => .pure he'
      · exact .stuck
    · rw [exec.eq_6 _ _ _ _ _ fun l' hi h1 h2 => hx ⟨l', hi, h1, h2⟩]
      exact (place_isOf l k hl).bind fun pl hpl => (Ret.triv).bind fun vs _ => (readPlace_isOf hS hg hpl).bind fun old ho =>
        (applyMutator_isOf ho hm).bind fun w hw => (writePlace_isOf hS hc.width hg hpl hw).bind fun env' he' => .pure he'
  | .panic, b, g, h, env, hs, hg => by rw [exec]; exact .throw
  | .ifElse x t e, b, g, h, env, hs, hg => by
    rw [OkStmt] at hs
    obtain ⟨-, ⟨h1, ht⟩, ⟨h2, he⟩, rfl⟩ := hs
    rw [exec]
    refine (Ret.triv).bind fun v _ => ?_
    split
    · exact (execScope_isOf hS hc t b _ h1 env ht hg _ _ (env_length hg) ⟨[], rfl⟩).mono ScopeOf.flow
    · exact (execScope_isOf hS hc e b _ h2 env he hg _ _ (env_length hg) ⟨[], rfl⟩).mono ScopeOf.flow
    · exact .stuck
  | .forIn x lo hi i body, b, g, h, env, hs, hg => by
    rw [OkStmt] at hs
    obtain ⟨⟨t, hlo, hhi, h', hb⟩, rfl⟩ := hs
    rw [exec]
    refine (eval_isOf hS hc hg lo none _ hlo nofun).bind fun a ha => (eval_isOf hS hc hg hi none _ hhi nofun).bind fun z hz =>
      (Ret.self).bind fun m hm => (Ret.self).bind fun n hn => ?_
    refine (Ret.forLoop (P := fun env => Env.IsOf c.u S.structs env h) _ _ _ hg fun k env hk hg => ?_).bind fun env' he' => .pure he'
    have hg' : Env.IsOf c.u S.structs ((x, rangeVal a z (m + k)) :: env) ((x, .int t) :: h) := by
      rw [Env.IsOf]
      refine ⟨_, _, rfl, rangeVal_isOf hc.width ha hz hm hn (by omega) ?_, hg⟩
      split at hk <;> omega
    refine (execScope_isOf hS hc body true _ h' _ hb hg' _ h (env_length hg) ⟨[_], rfl⟩).bind fun fl hf => ?_
    split
    · exact .pure hf
    · exact .stuck
  | .loop body, b, g, h, env, hs, hg => by
    rw [OkStmt] at hs
    obtain ⟨⟨h', hb⟩, rfl⟩ := hs
    rw [exec]
    refine (Ret.loop (P := fun env => Env.IsOf c.u S.structs env h) (Q := fun env => Env.IsOf c.u S.structs env h) _ hg fun env hg => ?_).bind
      fun env' he' => .pure he'
    refine (execScope_isOf hS hc body true _ h' _ hb hg _ h (env_length hg) ⟨[], rfl⟩).bind fun fl hf => ?_
    split
    · exact .pure hf
    · exact .pure hf
  | .break, b, g, h, env, hs, hg => by
    rw [exec]
    exact .pure ⟨[], hg⟩

theorem execBlock_isOf (hS : Names S) (hc : CallsOf S c) : (ss : List Stmt) → (b : Bool) → (g h : Types) → (env : Env) →
    OkBlock S b g ss h → Env.IsOf c.u S.structs env g → Ret (execBlock c ss env) (FlowOf c S g h)
  | [], b, g, h, env, hs, hg => by
    rw [OkBlock] at hs
    subst hs
    rw [execBlock]
    exact .pure hg
  | s :: ss, b, g, h, env, hs, hg => by
    rw [OkBlock] at hs
    obtain ⟨h', h1, h2⟩ := hs
    rw [execBlock]
    refine (exec_isOf hS hc s b g h' env h1 hg).bind fun fl hf => ?_
    split
    · refine (execBlock_isOf hS hc ss b h' h _ h2 hf).mono fun fl hf => ?_
      cases fl with
      | next env => exact hf
      | brk env =>
        obtain ⟨pre, hf⟩ := hf
        obtain ⟨pre', rfl⟩ := okStmt_ext s h1
        exact ⟨pre ++ pre', by rw [List.append_assoc]; exact hf⟩
    · exact .pure hf

theorem execScope_isOf (hS : Names S) (hc : CallsOf S c) (ss : List Stmt) (b : Bool) (g h : Types) (env : Env)
    (hs : OkBlock S b g ss h) (hg : Env.IsOf c.u S.structs env g) (n : Nat) (o : Types) (hn : n = o.length) (ho : ∃ pre, g = pre ++ o) :
    Ret (execScope c n ss env) (ScopeOf c S o) := by
  rw [execScope]
  refine (execBlock_isOf hS hc ss b g h env hs hg).bind fun fl hf => ?_
  obtain ⟨pre, rfl⟩ := ho
  obtain ⟨pre', rfl⟩ := okBlock_ext ss hs
  split
  · rw [FlowOf, ← List.append_assoc] at hf
    exact .pure (env_leave hn hf)
  · obtain ⟨p, hf⟩ := hf
    rw [← List.append_assoc] at hf
    exact .pure (env_leave hn hf)
end

theorem bindArgs_isOf (hu : 32 ≤ c.u) (ps : List (String × Ty)) (vs : List Val) (h : ValsOf c.u S.structs vs (ps.map (·.2))) :
    Ret (bindArgs ps vs) (Env.IsOf c.u S.structs · (ps.map fun x => (x.1, .ty x.2))) := by
  induction ps generalizing vs with
  | nil =>
    cases vs with
    | nil => exact .pure (by rw [Env.IsOf]; rfl)
    | cons v vs => exact .stuck
  | cons a ps ih =>
    obtain ⟨x, t⟩ := a
    cases vs with
    | nil => exact .stuck
    | cons v vs =>
      rw [ValsOf] at h
      obtain ⟨t', ts', he, hv, hvs⟩ := h
      cases he
      rw [bindArgs]
      exact (asTy_some hu hv).bind fun w hw => (ih vs hvs).bind fun env he => .pure (by
        rw [Env.IsOf]; exact ⟨_, _, rfl, hw, he⟩)

theorem runFn_isOf (hS : Names S) (hc : CallsOf S c) {f : Fn} (hf : OkFn S f) (vs : List Val)
    (h : ValsOf c.u S.structs vs (f.params.map (·.2))) : Ret (runFn c f vs) (Val.IsOf c.u S.structs · (.ty f.ret)) := by
  obtain ⟨g, k, hb, hr, hp⟩ := hf
  rw [runFn]
  refine (bindArgs_isOf hc.width f.params vs h).bind fun env he => (execBlock_isOf hS hc f.body false _ g env hb he).bind fun fl hf => ?_
  split
  · exact (eval_isOf hS hc hf f.result (some f.ret) k hr (fun _ h => by cases h; exact hp)).mono fun v hv => isOf_passes hv hp
  · exact .stuck

end Proofs.Sound

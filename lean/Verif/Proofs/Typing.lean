import Verif.Source.Typing

/-! A type checker: it computes all types that an expression can have by the rules of `Source/Typing.lean`. -/

namespace Proofs.Typing
open Source

/-- The types of integers. -/
def ints : List IntTy := [.u8, .u32, .u64, .i64, .usize]

theorem mem_ints (t : IntTy) : t ∈ ints := by cases t <;> decide

def passable (ks : List Kind) (t : Ty) : Bool :=
  ks.any fun k => decide (k = .ty t) || match k, t with
    | .ty (.array s _), .vec s' => decide (s = s')
    | _, _ => false

theorem passable_iff {ks : List Kind} {t : Ty} : passable ks t = true ↔ ∃ k ∈ ks, Passes k t := by
  unfold passable Passes
  rw [List.any_eq_true]
  refine exists_congr fun k => and_congr_right fun _ => ?_
  rw [Bool.or_eq_true, decide_eq_true_iff]
  refine or_congr_right ?_
  split
  · rw [decide_eq_true_iff]
    constructor
    · intro h
      exact ⟨_, _, rfl, by rw [h]⟩
    · rintro ⟨s, n, h1, h2⟩
      cases h1
      cases h2
      rfl
  · rename_i hne
    constructor
    · intro h
      cases h
    · rintro ⟨s, n, rfl, rfl⟩
      exact (hne _ _ _ rfl rfl).elim

theorem elem?_iff {k : Kind} {t : IntTy} : k.elem? = some t ↔ IsSeq k t := by
  unfold Kind.elem? IsSeq
  split <;> simp_all

mutual
def kinds (S : Items) (g : Types) : Expr → List Kind
  | .lit n => (ints.filter (fits n)).map .int
  | .var x => (g.lookup x).toList
  | .const x => S.fns.filterMap fun f => if f.name = x ∧ f.params = [] then some (.ty f.ret) else none
  | .neg e => if .int .i64 ∈ kinds S g e then [.int .i64] else []
  | .bin op a b =>
    match op with
    | .shl | .shr => if ∃ s ∈ ints, .int s ∈ kinds S g b then (ints.filter fun t => .int t ∈ kinds S g a).map .int else []
    | .lt | .eq => if ∃ t ∈ ints, .int t ∈ kinds S g a ∧ .int t ∈ kinds S g b then [.bool] else []
    | _ => (ints.filter fun t => .int t ∈ kinds S g a ∧ .int t ∈ kinds S g b).map .int
  | .cast e t => if ∃ s ∈ ints, .int s ∈ kinds S g e then [.int t] else []
  | .index e i => if .int .usize ∈ kinds S g i then (kinds S g e).filterMap fun s => s.elem?.map .int else []
  | .slice e lo hi =>
    if .int .usize ∈ kinds S g lo ∧ .int .usize ∈ kinds S g hi then (kinds S g e).filterMap fun s => s.elem?.map fun t => .ty (.vec t) else []
  | .prefix e hi => if .int .usize ∈ kinds S g hi then (kinds S g e).filterMap fun s => s.elem?.map fun t => .ty (.vec t) else []
  | .field e x => S.structs.filterMap fun d => if .ty (.struct d.1) ∈ kinds S g e then (d.2.lookup x).map .ty else none
  | .call f es =>
    (if f = "Vec::with_capacity" ∧ pass S g es [.int .usize] = true then ints.map fun t => .ty (.vec t) else []) ++
      (S.fns.filterMap fun d => if d.name = f ∧ pass S g es d.params = true then some (.ty d.ret) else none) ++
      (if f ∈ S.ext ∧ pass S g es [.vec .u8] = true then [.ty (.vec .u8)] else [])
  | .method e m es => (kinds S g e).filterMap fun s =>
    match methodTypes m s with
    | some (ts, k) => if pass S g es ts = true then some k else none
    | none => none
  | .vecOf x n => if .int .usize ∈ kinds S g n then (ints.filter fun t => .int t ∈ kinds S g x).map fun t => .ty (.vec t) else []
  | .arrayOf x n => (ints.filter fun t => .int t ∈ kinds S g x).map fun t => .ty (.array t n)
  | .list es =>
    if es.isEmpty then ints.map fun t => .ty (.vec t)
    else (ints.filter fun t => pass S g es (List.replicate es.length (.int t))).map fun t => .ty (.array t es.length)
  | .struct ds es => S.structs.filterMap fun d => if d.2 = ds ∧ pass S g es (ds.map (·.2)) = true then some (.ty (.struct d.1)) else none

def pass (S : Items) (g : Types) : List Expr → List Ty → Bool
  | [], ts => ts.isEmpty
  | e :: es, ts =>
    match ts with
    | [] => false
    | t :: ts => passable (kinds S g e) t && pass S g es ts
end

theorem mem_filter_int {p : IntTy → Bool} {f : IntTy → Kind} {k : Kind} : k ∈ (ints.filter p).map f ↔ ∃ t, p t = true ∧ k = f t := by
  simp only [List.mem_map, List.mem_filter, mem_ints, true_and, eq_comm]

theorem mem_seq {ks : List Kind} {f : IntTy → Kind} {k : Kind} :
    k ∈ (ks.filterMap fun s => s.elem?.map f) ↔ ∃ s t, s ∈ ks ∧ IsSeq s t ∧ k = f t := by
  simp only [List.mem_filterMap, Option.map_eq_some_iff, elem?_iff, eq_comm (a := k)]
  exact ⟨fun ⟨s, h, t, h1, h2⟩ => ⟨s, t, h, h1, h2⟩, fun ⟨s, t, h, h1, h2⟩ => ⟨s, h, t, h1, h2⟩⟩

theorem mem_ite_nil {p : Prop} [Decidable p] {l : List Kind} {k : Kind} : k ∈ (if p then l else []) ↔ p ∧ k ∈ l := by
  split <;> simp_all

theorem exists_ints {p : IntTy → Prop} : (∃ t ∈ ints, p t) ↔ ∃ t, p t := by simp only [mem_ints, true_and]

mutual
theorem mem_kinds (S : Items) (g : Types) : (e : Expr) → (k : Kind) → (k ∈ kinds S g e ↔ HasType S g e k)
  | .lit n, k => by rw [kinds, HasType, mem_filter_int]
  | .var x, k => by rw [kinds, HasType, Option.mem_toList]
  | .const x, k => by
    rw [kinds, HasType, List.mem_filterMap]
    refine exists_congr fun f => and_congr_right fun _ => ?_
    split <;> simp_all [eq_comm]
  | .neg e, k => by rw [kinds, HasType, mem_ite_nil, mem_kinds S g e, List.mem_singleton]
  | .bin op a b, k => by
    have ha := mem_kinds S g a
    have hb := mem_kinds S g b
    cases op <;> simp only [kinds, HasType, mem_ite_nil, exists_ints, mem_filter_int, decide_eq_true_eq, List.mem_singleton, ha, hb]
    all_goals try simp only [and_assoc]
    all_goals first
      | done
      | (constructor
         · rintro ⟨hs, t, ht, rfl⟩
           exact ⟨t, ht, hs, rfl⟩
         · rintro ⟨t, ht, hs, rfl⟩
           exact ⟨hs, t, ht, rfl⟩)
      | (constructor
         · rintro ⟨⟨t, h1, h2⟩, rfl⟩
           exact ⟨t, h1, h2, rfl⟩
         · rintro ⟨t, h1, h2, rfl⟩
           exact ⟨⟨t, h1, h2⟩, rfl⟩)
  | .cast e t, k => by simp only [kinds, HasType, mem_ite_nil, exists_ints, mem_kinds S g e, List.mem_singleton]
  | .index e i, k => by
    simp only [kinds, HasType, mem_ite_nil, mem_seq, mem_kinds S g e, mem_kinds S g i]
    exact ⟨fun ⟨h, s, t, h1, h2, h3⟩ => ⟨s, t, h1, h2, h, h3⟩, fun ⟨s, t, h1, h2, h, h3⟩ => ⟨h, s, t, h1, h2, h3⟩⟩
  | .slice e lo hi, k => by
    simp only [kinds, HasType, mem_ite_nil, mem_seq, mem_kinds S g e, mem_kinds S g lo, mem_kinds S g hi]
    exact ⟨fun ⟨⟨h, h'⟩, s, t, h1, h2, h3⟩ => ⟨s, t, h1, h2, h, h', h3⟩, fun ⟨s, t, h1, h2, h, h', h3⟩ => ⟨⟨h, h'⟩, s, t, h1, h2, h3⟩⟩
  | .prefix e hi, k => by
    simp only [kinds, HasType, mem_ite_nil, mem_seq, mem_kinds S g e, mem_kinds S g hi]
    exact ⟨fun ⟨h, s, t, h1, h2, h3⟩ => ⟨s, t, h1, h2, h, h3⟩, fun ⟨s, t, h1, h2, h, h3⟩ => ⟨h, s, t, h1, h2, h3⟩⟩
  | .field e x, k => by
    simp only [kinds, HasType, List.mem_filterMap, mem_kinds S g e, Option.ite_none_right_eq_some, Option.map_eq_some_iff]
    constructor
    · rintro ⟨⟨n, ds⟩, h1, h2, t, h3, rfl⟩
      exact ⟨n, ds, t, h2, h1, h3, rfl⟩
    · rintro ⟨n, ds, t, h2, h1, h3, rfl⟩
      exact ⟨⟨n, ds⟩, h1, h2, t, h3, rfl⟩
  | .call f es, k => by
    have hp := pass_iff S g es
    simp only [kinds, HasType, List.mem_append, mem_ite_nil, List.mem_filterMap, Option.ite_none_right_eq_some, Option.some.injEq,
      List.mem_singleton, hp, List.mem_map, mem_ints, true_and, and_assoc, or_assoc, eq_comm (b := k)]
  | .method e m es, k => by
    have hp := pass_iff S g es
    simp only [kinds, HasType, List.mem_filterMap, mem_kinds S g e]
    refine exists_congr fun s => ?_
    constructor
    · rintro ⟨h1, h2⟩
      split at h2
      · rename_i ts k' hm
        rw [Option.ite_none_right_eq_some, hp] at h2
        obtain ⟨h2, h3⟩ := h2
        cases h3
        exact ⟨ts, h1, hm, h2⟩
      · cases h2
    · rintro ⟨ts, h1, h2, h3⟩
      refine ⟨h1, ?_⟩
      rw [h2]
      exact if_pos ((hp ts).2 h3)
  | .vecOf x n, k => by
    simp only [kinds, HasType, mem_ite_nil, mem_filter_int, decide_eq_true_eq, mem_kinds S g x, mem_kinds S g n]
    exact ⟨fun ⟨h, t, h1, h2⟩ => ⟨t, h1, h, h2⟩, fun ⟨t, h1, h, h2⟩ => ⟨h, t, h1, h2⟩⟩
  | .arrayOf x n, k => by simp only [kinds, HasType, mem_filter_int, decide_eq_true_eq, mem_kinds S g x]
  | .list es, k => by
    have hp := pass_iff S g es
    rw [kinds, HasType]
    cases es with
    | nil => simp [mem_ints, eq_comm]
    | cons e es => simp only [List.isEmpty_cons, Bool.false_eq_true, if_false, mem_filter_int, hp]; simp
  | .struct ds es, k => by
    have hp := pass_iff S g es
    simp only [kinds, HasType, List.mem_filterMap, Option.ite_none_right_eq_some, hp, Option.some.injEq]
    constructor
    · rintro ⟨⟨n, ds'⟩, h1, ⟨rfl, h2⟩, rfl⟩
      exact ⟨n, h1, h2, rfl⟩
    · rintro ⟨n, h1, h2, rfl⟩
      exact ⟨(n, ds), h1, ⟨rfl, h2⟩, rfl⟩

theorem pass_iff (S : Items) (g : Types) : (es : List Expr) → (ts : List Ty) → (pass S g es ts = true ↔ HasTypes S g es ts)
  | [], ts => by rw [pass, HasTypes, List.isEmpty_iff]
  | e :: es, ts => by
    rw [HasTypes]
    cases ts with
    | nil => rw [pass]; simp
    | cons t ts =>
      rw [pass, Bool.and_eq_true, passable_iff, pass_iff S g es]
      simp only [mem_kinds S g e]
      constructor
      · rintro ⟨h1, h2⟩
        exact ⟨t, ts, rfl, h1, h2⟩
      · rintro ⟨_, _, h, h1, h2⟩
        cases h
        exact ⟨h1, h2⟩
end

mutual
def outs (S : Items) (inLoop : Bool) (g : Types) : Stmt → List Types
  | .letVar x t e =>
    match t with
    | some t => if passable (kinds S g e) t = true then [(x, .ty t) :: g] else []
    | none => (kinds S g e).map fun k => (x, k) :: g
  | .letSnd x e => (ints.filter fun t => .halves t ∈ kinds S g e).map fun t => (x, .ty (.vec t)) :: g
  | .assign l e => if isPlace l = true ∧ (∃ k ∈ kinds S g l, k ∈ kinds S g e) then [g] else []
  | .assignOp op l e => if isPlace l = true ∧ (∃ k ∈ kinds S g l, k ∈ kinds S g (.bin op l e)) then [g] else []
  | .mutate l m es =>
    if isPlace l = true ∧ ((kinds S g l).any fun k =>
      match mutatorTypes m k with
      | some ts => pass S g es ts
      | none => false) = true then [g] else []
  | .panic => [g]
  | .ifElse c t e => if .bool ∈ kinds S g c ∧ (outsBlock S inLoop g t).isEmpty = false ∧ (outsBlock S inLoop g e).isEmpty = false then [g] else []
  | .forIn x lo hi _ body =>
    if (ints.any fun t => decide (.int t ∈ kinds S g lo) && decide (.int t ∈ kinds S g hi) && !(outsBlock S true ((x, .int t) :: g) body).isEmpty) = true
    then [g] else []
  | .loop body => if (outsBlock S true g body).isEmpty = false then [g] else []
  | .break => if inLoop = true then [g] else []

def outsBlock (S : Items) (inLoop : Bool) (g : Types) : List Stmt → List Types
  | [] => [g]
  | s :: ss => (outs S inLoop g s).flatMap fun h => outsBlock S inLoop h ss
end

theorem mem_ite_single {α : Type} {p : Prop} [Decidable p] {a b : α} : b ∈ (if p then [a] else []) ↔ p ∧ b = a := by
  split <;> simp_all

theorem nonempty_iff {α : Type} {l : List α} : l.isEmpty = false ↔ ∃ a, a ∈ l := by
  cases l with
  | nil => simp
  | cons a l => simp

mutual
theorem mem_outs (S : Items) (inLoop : Bool) : (s : Stmt) → (g g' : Types) → (g' ∈ outs S inLoop g s ↔ OkStmt S inLoop g s g')
  | .letVar x t e, g, g' => by
    cases t with
    | none =>
      simp only [outs, OkStmt, List.mem_map, mem_kinds]
      exact exists_congr fun k => and_congr_right fun _ => eq_comm
    | some t => simp only [outs, OkStmt, mem_ite_single, passable_iff, mem_kinds]
  | .letSnd x e, g, g' => by
    rw [outs, OkStmt, List.mem_map]
    simp only [List.mem_filter, mem_ints, true_and, decide_eq_true_eq, mem_kinds, eq_comm (b := g')]
  | .assign l e, g, g' => by simp only [outs, OkStmt, mem_ite_single, mem_kinds, and_assoc]
  | .assignOp op l e, g, g' => by simp only [outs, OkStmt, mem_ite_single, mem_kinds, and_assoc]
  | .mutate l m es, g, g' => by
    simp only [outs, OkStmt, mem_ite_single, and_assoc, List.any_eq_true, mem_kinds]
    refine and_congr_right fun _ => and_congr_left fun _ => exists_congr fun k => ?_
    constructor
    · rintro ⟨h1, h2⟩
      split at h2
      · rename_i ts hm
        exact ⟨ts, h1, hm, (pass_iff S g es ts).1 h2⟩
      · cases h2
    · rintro ⟨ts, h1, h2, h3⟩
      refine ⟨h1, ?_⟩
      rw [h2]
      exact (pass_iff S g es ts).2 h3
  | .panic, g, g' => by rw [outs, OkStmt, List.mem_singleton]
  | .ifElse c t e, g, g' => by
    simp only [outs, OkStmt, mem_ite_single, nonempty_iff, mem_outsBlock S inLoop t, mem_outsBlock S inLoop e, mem_kinds, and_assoc]
  | .forIn x lo hi i body, g, g' => by
    simp only [outs, OkStmt, mem_ite_single, List.any_eq_true, mem_ints, true_and, Bool.and_eq_true, decide_eq_true_eq, Bool.not_eq_true',
      nonempty_iff, mem_outsBlock S true body, mem_kinds, and_assoc]
  | .loop body, g, g' => by simp only [outs, OkStmt, mem_ite_single, nonempty_iff, mem_outsBlock S true body]
  | .break, g, g' => by rw [outs, OkStmt, mem_ite_single]

theorem mem_outsBlock (S : Items) (inLoop : Bool) : (ss : List Stmt) → (g g' : Types) → (g' ∈ outsBlock S inLoop g ss ↔ OkBlock S inLoop g ss g')
  | [], g, g' => by rw [outsBlock, OkBlock, List.mem_singleton]
  | s :: ss, g, g' => by simp only [outsBlock, OkBlock, List.mem_flatMap, mem_outs S inLoop s, mem_outsBlock S inLoop ss]
end

/-- Is the function well typed? -/
def check (S : Items) (f : Fn) : Bool :=
  (outsBlock S false (f.params.map fun x => (x.1, .ty x.2)) f.body).any fun g => passable (kinds S g f.result) f.ret

theorem check_iff (S : Items) (f : Fn) : check S f = true ↔ OkFn S f := by
  unfold check OkFn
  simp only [List.any_eq_true, passable_iff, mem_outsBlock, mem_kinds]
  exact ⟨fun ⟨g, h, k, h1, h2⟩ => ⟨g, k, h, h1, h2⟩, fun ⟨g, k, h, h1, h2⟩ => ⟨g, h, k, h1, h2⟩⟩

theorem mem_block {S : Items} {inLoop : Bool} {s : Stmt} : ∀ {ss : List Stmt} {g g' : Types}, OkBlock S inLoop g ss g' → s ∈ ss →
    ∃ h h', OkStmt S inLoop h s h'
  | [], _, _, _, hs => (List.not_mem_nil hs).elim
  | s' :: ss, g, g', ho, hs => by
    rw [OkBlock] at ho
    obtain ⟨h, h1, h2⟩ := ho
    rcases List.mem_cons.1 hs with rfl | hs
    · exact ⟨g, h, h1⟩
    · exact mem_block h2 hs

theorem mem_let {S : Items} {f : Fn} (hf : OkFn S f) {x : String} {t : Ty} {e : Expr} (hm : .letVar x (some t) e ∈ f.body) :
    ∃ g k, HasType S g e k ∧ Passes k t := by
  obtain ⟨g, k, hb, -, -⟩ := hf
  obtain ⟨h, h', ho⟩ := mem_block hb hm
  rw [OkStmt] at ho
  obtain ⟨k, hk⟩ := ho.1
  exact ⟨h, k, hk⟩

/-- A vector of which only the elements are unknown. -/
theorem let_vec {S : Items} {f : Fn} (hf : OkFn S f) {x : String} {t : Ty} {n : Expr} {m : Nat} (hm : .letVar x (some t) (.vecOf (.lit m) n) ∈ f.body) :
    ∃ s, t = .vec s := by
  obtain ⟨g, k, hk, hp⟩ := mem_let hf hm
  rw [HasType] at hk
  obtain ⟨s, -, -, rfl⟩ := hk
  rcases hp with hp | ⟨_, _, hp, -⟩
  · cases hp; exact ⟨s, rfl⟩
  · cases hp

/-- The empty vector. -/
theorem let_nil {S : Items} {f : Fn} (hf : OkFn S f) {x : String} {t : Ty} (hm : .letVar x (some t) (.list []) ∈ f.body) : ∃ s, t = .vec s := by
  obtain ⟨g, k, hk, hp⟩ := mem_let hf hm
  rw [HasType] at hk
  rcases hk with ⟨-, s, rfl⟩ | ⟨h, -⟩
  · rcases hp with hp | ⟨_, _, hp, -⟩
    · cases hp; exact ⟨s, rfl⟩
    · cases hp
  · exact (h rfl).elim

/-- A literal. -/
theorem let_lit {S : Items} {f : Fn} (hf : OkFn S f) {x : String} {t : Ty} {n : Nat} (hm : .letVar x (some t) (.lit n) ∈ f.body) : ∃ s, t = .int s := by
  obtain ⟨g, k, hk, hp⟩ := mem_let hf hm
  rw [HasType] at hk
  obtain ⟨s, -, rfl⟩ := hk
  rcases hp with hp | ⟨_, _, hp, -⟩
  · cases hp; exact ⟨s, rfl⟩
  · cases hp

end Proofs.Typing

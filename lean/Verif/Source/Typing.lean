import Verif.Source.Syntax

/-!
# Types of the fragment

Which programs of `Source.Syntax` the compiler accepts, as far as the types of expressions are concerned. As in `Source.Syntax`,
references are written as what they refer to, and `Vec<t>` and `&[t]` are the same type. So an array may be passed where a slice is
declared, and the rules do not see where a `&` is missing. They do not see `mut`, moves and borrows either.
-/

namespace Source

/-- The type of a value: a declared one, a truth value, or the two parts of a slice. -/
inductive Kind
  | ty (t : Ty)
  | bool
  | halves (t : IntTy)
deriving DecidableEq, Repr

/-- The type of an integer. -/
abbrev Kind.int (t : IntTy) : Kind := .ty (.int t)

/-- The type of a function, with its name. -/
structure Sig where
  name : String
  params : List Ty
  ret : Ty
deriving DecidableEq, Repr

/-- The type of the function. -/
def Fn.sig (f : Fn) : Sig := { name := f.name, params := f.params.map (·.2), ret := f.ret }

/-- What the functions of a crate can refer to: its functions and constants, its structs, and functions of other crates that map bytes to
bytes. -/
structure Items where
  fns : List Sig
  structs : List (String × List (String × Ty))
  ext : List String

/-- The types of the local variables, innermost first. -/
abbrev Types := List (String × Kind)

/-- Does the literal fit the type? `usize` has at least 32 bits. -/
def fits (n : Nat) : IntTy → Bool
  | .u8 => decide (n < 2 ^ 8)
  | .u32 | .usize => decide (n < 2 ^ 32)
  | .u64 => decide (n < 2 ^ 64)
  | .i64 => decide (n < 2 ^ 63)

/-- A vector, a slice or an array with elements of type `t`. -/
def IsSeq (k : Kind) (t : IntTy) : Prop := k = .ty (.vec t) ∨ ∃ n, k = .ty (.array t n)

/-- A value of type `k` can be passed where the type `t` is declared. -/
def Passes (k : Kind) (t : Ty) : Prop := k = .ty t ∨ ∃ s n, k = .ty (.array s n) ∧ t = .vec s

/-- The elements of a vector, a slice or an array. -/
def Kind.elem? : Kind → Option IntTy
  | .ty (.vec t) => some t
  | .ty (.array t _) => some t
  | _ => none

/-- The types of the arguments and of the result of a method, from the type of the receiver. -/
def methodTypes (m : String) (k : Kind) : Option (List Ty × Kind) :=
  match m with
  | "len" => k.elem?.map fun _ => ([], .int .usize)
  | "clone" => some ([], k)
  | "to_vec" => k.elem?.map fun t => ([], .ty (.vec t))
  | "to_le_bytes" =>
    match k with
    | .ty (.int .u32) => some ([], .ty (.array .u8 4))
    | .ty (.int .u64) => some ([], .ty (.array .u8 8))
    | _ => none
  | "wrapping_add" | "wrapping_sub" =>
    match k with
    | .ty (.int t) => some ([.int t], .int t)
    | _ => none
  | "split_at" => k.elem?.map fun t => ([.int .usize], .halves t)
  | _ => none

/-- The types of the arguments of a method that changes its receiver. Only vectors grow. -/
def mutatorTypes (m : String) (k : Kind) : Option (List Ty) :=
  match m with
  | "clone_from_slice" => k.elem?.map fun t => [.vec t]
  | "extend_from_slice" =>
    match k with
    | .ty (.vec t) => some [.vec t]
    | _ => none
  | "push" =>
    match k with
    | .ty (.vec t) => some [.int t]
    | _ => none
  | "resize" =>
    match k with
    | .ty (.vec t) => some [.int .usize, .int t]
    | _ => none
  | _ => none

/-- Is the expression a place? -/
def isPlace : Expr → Bool
  | .var _ => true
  | .index e _ => isPlace e
  | .prefix e _ => isPlace e
  | .field e _ => isPlace e
  | _ => false

mutual
/-- The expression can have the type. A literal can have the type of any integer that it fits. -/
def HasType (S : Items) (g : Types) : Expr → Kind → Prop
  | .lit n, k => ∃ t, fits n t = true ∧ k = .int t
  | .var x, k => g.lookup x = some k
  | .const x, k => ∃ f ∈ S.fns, f.name = x ∧ f.params = [] ∧ k = .ty f.ret
  | .neg e, k => HasType S g e (.int .i64) ∧ k = .int .i64
  | .bin op a b, k =>
    ∃ t, HasType S g a (.int t) ∧
      match op with
      | .shl | .shr => (∃ s, HasType S g b (.int s)) ∧ k = .int t
      | .lt | .eq => HasType S g b (.int t) ∧ k = .bool
      | _ => HasType S g b (.int t) ∧ k = .int t
  | .cast e t, k => (∃ s, HasType S g e (.int s)) ∧ k = .int t
  | .index e i, k => ∃ s t, HasType S g e s ∧ IsSeq s t ∧ HasType S g i (.int .usize) ∧ k = .int t
  | .slice e lo hi, k =>
    ∃ s t, HasType S g e s ∧ IsSeq s t ∧ HasType S g lo (.int .usize) ∧ HasType S g hi (.int .usize) ∧ k = .ty (.vec t)
  | .prefix e hi, k => ∃ s t, HasType S g e s ∧ IsSeq s t ∧ HasType S g hi (.int .usize) ∧ k = .ty (.vec t)
  | .field e x, k => ∃ n ds t, HasType S g e (.ty (.struct n)) ∧ (n, ds) ∈ S.structs ∧ ds.lookup x = some t ∧ k = .ty t
  | .call f es, k =>
    (f = "Vec::with_capacity" ∧ HasTypes S g es [.int .usize] ∧ ∃ t, k = .ty (.vec t)) ∨
      (∃ d ∈ S.fns, d.name = f ∧ HasTypes S g es d.params ∧ k = .ty d.ret) ∨
      (f ∈ S.ext ∧ HasTypes S g es [.vec .u8] ∧ k = .ty (.vec .u8))
  | .method e m es, k => ∃ s ts, HasType S g e s ∧ methodTypes m s = some (ts, k) ∧ HasTypes S g es ts
  | .vecOf x n, k => ∃ t, HasType S g x (.int t) ∧ HasType S g n (.int .usize) ∧ k = .ty (.vec t)
  | .arrayOf x n, k => ∃ t, HasType S g x (.int t) ∧ k = .ty (.array t n)
  | .list es, k =>
    (es = [] ∧ ∃ t, k = .ty (.vec t)) ∨ (es ≠ [] ∧ ∃ t, HasTypes S g es (List.replicate es.length (.int t)) ∧ k = .ty (.array t es.length))
  | .struct ds es, k => ∃ n, (n, ds) ∈ S.structs ∧ HasTypes S g es (ds.map (·.2)) ∧ k = .ty (.struct n)

/-- The expressions can be passed where the types are declared. -/
def HasTypes (S : Items) (g : Types) : List Expr → List Ty → Prop
  | [], ts => ts = []
  | e :: es, ts => ∃ t ts', ts = t :: ts' ∧ (∃ k, HasType S g e k ∧ Passes k t) ∧ HasTypes S g es ts'
end

mutual
/-- The statement is well typed and leaves the local variables with the types `g'`. `inLoop`: it may be a `break`. -/
def OkStmt (S : Items) (inLoop : Bool) (g : Types) : Stmt → Types → Prop
  | .letVar x t e, g' =>
    match t with
    | some t => (∃ k, HasType S g e k ∧ Passes k t) ∧ g' = (x, .ty t) :: g
    | none => ∃ k, HasType S g e k ∧ g' = (x, k) :: g
  | .letSnd x e, g' => ∃ t, HasType S g e (.halves t) ∧ g' = (x, .ty (.vec t)) :: g
  | .assign l e, g' => isPlace l = true ∧ (∃ k, HasType S g l k ∧ HasType S g e k) ∧ g' = g
  | .assignOp op l e, g' => isPlace l = true ∧ (∃ k, HasType S g l k ∧ HasType S g (.bin op l e) k) ∧ g' = g
  | .mutate l m es, g' => isPlace l = true ∧ (∃ k ts, HasType S g l k ∧ mutatorTypes m k = some ts ∧ HasTypes S g es ts) ∧ g' = g
  | .panic, g' => g' = g
  | .ifElse c t e, g' => HasType S g c .bool ∧ (∃ h, OkBlock S inLoop g t h) ∧ (∃ h, OkBlock S inLoop g e h) ∧ g' = g
  | .forIn x lo hi _ body, g' =>
    (∃ t, HasType S g lo (.int t) ∧ HasType S g hi (.int t) ∧ ∃ h, OkBlock S true ((x, .int t) :: g) body h) ∧ g' = g
  | .loop body, g' => (∃ h, OkBlock S true g body h) ∧ g' = g
  | .break, g' => inLoop = true ∧ g' = g

/-- The statements are well typed and leave the local variables with the types `g'`. -/
def OkBlock (S : Items) (inLoop : Bool) (g : Types) : List Stmt → Types → Prop
  | [], g' => g' = g
  | s :: ss, g' => ∃ h, OkStmt S inLoop g s h ∧ OkBlock S inLoop h ss g'
end

/-- The function or constant is well typed. -/
def OkFn (S : Items) (f : Fn) : Prop :=
  ∃ g k, OkBlock S false (f.params.map fun x => (x.1, .ty x.2)) f.body g ∧ HasType S g f.result k ∧ Passes k f.ret

/-- All functions and constants of the crate are well typed, and no two have the same name. -/
def WellTyped (fns : List Fn) (structs : List (String × List (String × Ty))) (ext : List String) : Prop :=
  (∀ f ∈ fns, OkFn { fns := fns.map (·.sig), structs, ext } f) ∧ (fns.map (·.name)).Nodup

end Source

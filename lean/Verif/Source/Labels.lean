import Verif.Source.Syntax

/-!
# Which values a function keeps to itself

A checker for the fragment of `Source.Syntax`. Each value has a label that says how it may differ between two runs of the program:
not at all (`pub`), in its contents but not in its type and lengths (`sec`), or in any way (`any`). A function passes when neither the
way that an `if` takes nor the bounds of a `for` depend on a value that may differ.

In the strict mode, moreover, no position of an access and no operation that may panic depends on a value that may differ, and
nothing is labelled `any`. Outside of it they may; a vector whose length depends on such a position is labelled `any`.

What passing means is proved in `Proofs/SrcSecret.lean`.
-/

namespace Source

/-- How a value may differ between two runs. -/
inductive Label
  | pub | sec | any
deriving DecidableEq, Repr

/-- The weaker of two labels. -/
def Label.join : Label → Label → Label
  | .pub, b => b
  | .sec, .pub => .sec
  | .sec, b => b
  | .any, _ => .any

/-- The label of all of them together. -/
def joins : List Label → Label
  | [] => .pub
  | a :: as => a.join (joins as)

/-- The labels of the local variables, innermost first. -/
abbrev Labs := List (String × Label)

/-- The label of a variable. -/
def Labs.get (x : String) : Labs → Option Label
  | [] => none
  | (y, l) :: g => if x = y then some l else get x g

/-- Changes the label of the innermost variable called `x`. -/
def Labs.set (x : String) (l : Label) : Labs → Labs
  | [] => []
  | (y, m) :: g => if x = y then (y, l) :: g else (y, m) :: set x l g

/-- Leaving a block. -/
def Labs.leave (n : Nat) (g : Labs) : Labs := g.drop (g.length - n)

/-- The weaker labels of two lists of the same variables. -/
def Labs.join : Labs → Labs → Option Labs
  | [], [] => some []
  | (x, a) :: g, (y, b) :: h => if x = y then do some ((x, a.join b) :: (← join g h)) else none
  | _, _ => none

/-- The label of the result of an operation on values of which the weakest label is the last argument; `ok` if the shape of the result,
and whether there is one, depend only on the shapes of the operands. -/
def grade (strict ok : Bool) : Label → Option Label
  | .pub => some .pub
  | .sec => if ok then some .sec else if strict then none else some .any
  | .any => if strict then none else some .any

/-- The operators that cannot panic. -/
def BinOp.total : BinOp → Bool
  | .and | .or | .xor | .lt | .eq => true
  | _ => false

/-- The shifts. -/
def BinOp.isShift : BinOp → Bool
  | .shl | .shr => true
  | _ => false

/-- In the strict mode, an operator on values that may differ must not panic: a shift by a number of places that may differ can. -/
def opOk (strict : Bool) (op : BinOp) (right : Label) : Bool := !strict || op.total || (op.isShift && right == .pub)

/-- The label of an element of a vector labelled `x` at a position labelled `y`. -/
def labIndex (strict : Bool) (x y : Label) : Option Label :=
  if y = .pub then grade strict true x else if strict then none else if x = .any then some .any else some .sec

/-- The methods whose result has a shape that depends only on the shapes of the receiver and the arguments. -/
def keepsShape (m : String) : Bool := m == "clone" || m == "to_vec" || m == "to_le_bytes" || m == "wrapping_add" || m == "wrapping_sub"

/-- The methods that change their receiver into something whose shape depends only on shapes. -/
def keepsShapeMut (m : String) : Bool := m == "extend_from_slice" || m == "push"

/-- The label of what a method yields. -/
def labMethod (strict : Bool) (m : String) (x : Label) (ls : List Label) : Option Label :=
  if m == "len" then grade strict false (if x.join (joins ls) = .sec then .pub else x.join (joins ls))
  else grade strict (keepsShape m || (m == "split_at" && joins ls == .pub)) (x.join (joins ls))

variable (strict : Bool) (sig : String → List Label → Option Label)

mutual
/-- The label of an expression. `sig` gives the labels of the results of the functions. -/
def labE (g : Labs) : Expr → Option Label
  | .lit _ => some .pub
  | .var x => do grade strict true (← g.get x)
  | .const x => sig x []
  | .neg e => do grade strict (!strict) (← labE g e)
  | .bin op a b => do
    let x ← labE g a
    let y ← labE g b
    grade strict (opOk strict op y) (x.join y)
  | .cast e _ => do grade strict true (← labE g e)
  | .index e i => do
    let x ← labE g e
    let y ← labE g i
    labIndex strict x y
  | .slice e lo hi => do
    let x ← labE g e
    let y ← labE g lo
    let z ← labE g hi
    grade strict (y.join z == .pub) (x.join (y.join z))
  | .prefix e hi => do
    let x ← labE g e
    let y ← labE g hi
    grade strict (y == .pub) (x.join y)
  | .field e _ => do grade strict true (← labE g e)
  | .call f args => do
    let ls ← labL g args
    if f = "Vec::with_capacity" then some .pub else sig f ls
  | .method e m args => do
    let x ← labE g e
    let ls ← labL g args
    labMethod strict m x ls
  | .vecOf x n => do
    let a ← labE g x
    let b ← labE g n
    grade strict (b == .pub) (a.join b)
  | .arrayOf x _ => do grade strict true (← labE g x)
  | .list es => do grade strict true (joins (← labL g es))
  | .struct _ es => do grade strict true (joins (← labL g es))

/-- The labels of expressions. -/
def labL (g : Labs) : List Expr → Option (List Label)
  | [] => some []
  | e :: es => do
    let l ← labE g e
    let ls ← labL g es
    some (l :: ls)
end

/-- The variable that a place is a part of, and the label of the way to the part. -/
def labP (g : Labs) : Expr → Option (String × Label)
  | .var x => some (x, .pub)
  | .index e i => do
    let pl ← labP g e
    let y ← labE strict sig g i
    if strict ∧ y ≠ .pub then none else some (pl.1, pl.2.join y)
  | .field e _ => labP g e
  | _ => none

/-- The place is an element of a vector. -/
def isElement : Expr → Bool
  | .index _ _ => true
  | _ => false

/-- The label of a variable labelled `old` after a value labelled `new` has been written to a part of it, to which the way is labelled `way`:
when an element of a vector is written, the vector keeps its length. -/
def labPut (element : Bool) (old new way : Label) : Option Label :=
  if strict = false ∧ element = true ∧ old.join (new.join way) ≠ .pub then some (old.join .sec)
  else grade strict (way == .pub) (old.join (new.join way))

/-- The labels after a value labelled `new` has been written to the place `l`. -/
def labWrite (g : Labs) (l : Expr) (pl : String × Label) (new : Label) : Option Labs := do
  let old ← g.get pl.1
  let r ← labPut strict (isElement l) old new pl.2
  some (g.set pl.1 r)

/-- The label of what a place holds. -/
def labRead (g : Labs) (pl : String × Label) : Option Label := do
  let old ← g.get pl.1
  grade strict (pl.2 == .pub) (old.join pl.2)

/-- The label of a vector labelled `o` after a part of it that ends at a position labelled `y` has been replaced by something
labelled `x`: it keeps its length. -/
def labOverwrite (o y x : Label) : Option Label :=
  if strict = false ∧ o.join (y.join x) ≠ .pub then some (o.join .sec) else grade strict (y == .pub) (o.join (y.join x))

/-- Labels that a round of a loop does not weaken, at least as weak as those at its start. -/
def fixLab (f : Labs → Option Labs) : Nat → Labs → Option Labs
  | 0, _ => none
  | n + 1, g => do
    let h ← f g
    let k ← g.join h
    if k = g then some g else fixLab f n k

/-- The first label is that of a number that does not differ. -/
def headPub (ls : List Label) : Bool := ls.head? == some .pub

/-- What is required of the labels at a `break`: there is no `break`; labels at least as strong as these; nothing yet, while the labels of
a loop are being searched for. -/
inductive Brk
  | never
  | upTo (g : Labs)
  | free

/-- The requirement is met. -/
def Brk.ok (g : Labs) : Brk → Bool
  | .never => false
  | .upTo b => b.join (g.leave b.length) = some b
  | .free => true

/-- A `break` from inside a block with `n` variables around it leaves the required ones. -/
def Brk.fits (n : Nat) : Brk → Bool
  | .upTo b => b.length ≤ n
  | _ => true

mutual
/-- The labels after a statement. -/
def labS : Stmt → Brk → Labs → Option Labs
  | .letVar x _ e, _, g => do some ((x, ← labE strict sig g e) :: g)
  | .letSnd x e, _, g => do some ((x, ← grade strict true (← labE strict sig g e)) :: g)
  | .assign l e, _, g => do
    let v ← labE strict sig g e
    let pl ← labP strict sig g l
    labWrite strict g l pl v
  | .assignOp op l e, _, g => do
    let v ← labE strict sig g e
    let pl ← labP strict sig g l
    let o ← labRead strict g pl
    let n ← grade strict (opOk strict op v) (o.join v)
    labWrite strict g l pl n
  | .mutate l m args, _, g =>
    match l, m with
    | .prefix l hi, "clone_from_slice" => do
      let pl ← labP strict sig g l
      let o ← labRead strict g pl
      let y ← labE strict sig g hi
      let ls ← labL strict sig g args
      let n ← labOverwrite strict o y (joins ls)
      labWrite strict g l pl n
    | l, m => do
      let pl ← labP strict sig g l
      let ls ← labL strict sig g args
      let o ← labRead strict g pl
      let n ← grade strict (keepsShapeMut m || (m == "resize" && headPub ls)) (o.join (joins ls))
      labWrite strict g l pl n
  | .panic, _, g => some g
  | .ifElse c t e, brk, g => do
    let v ← labE strict sig g c
    if v = .pub ∧ brk.fits g.length then do
      let g₁ ← labB t brk g
      let g₂ ← labB e brk g
      (g₁.leave g.length).join (g₂.leave g.length)
    else none
  | .forIn x lo hi _ body, _, g => do
    let a ← labE strict sig g lo
    let b ← labE strict sig g hi
    if a.join b = .pub then
      fixLab (fun g => do some ((← labB body .never ((x, .pub) :: g)).leave g.length)) 20 g
    else none
  | .loop body, _, g => do
    let k ← fixLab (fun g => do some ((← labB body .free g).leave g.length)) 20 g
    let h ← labB body (.upTo k) k
    if k.join (h.leave k.length) = some k then some k else none
  | .break, brk, g => if brk.ok g then some g else none

/-- The labels after statements. -/
def labB : List Stmt → Brk → Labs → Option Labs
  | [], _, g => some g
  | s :: ss, brk, g => do
    let g ← labS s brk g
    labB ss brk g
end

/-- The labels of the parameters. -/
def labArgs (strict : Bool) : List (String × Ty) → List Label → Option Labs
  | [], [] => some []
  | (x, _) :: ps, l :: ls => do
    let l ← grade strict true l
    let g ← labArgs strict ps ls
    some ((x, l) :: g)
  | _, _ => none

/-- The label of the result of a function. -/
def labFn (f : Fn) (ls : List Label) : Option Label := do
  let g ← labArgs strict f.params ls
  let g ← labB strict sig f.body .never g
  labE strict sig g f.result

/-- The label of what a function of another crate returns: as many bytes for every input. -/
def labDigest (strict : Bool) : Label → Option Label
  | .any => if strict then none else some .sec
  | l => some l

/-- The label of the result of a function of the crate, or of another one; calls are followed to the given depth. -/
def labCall (strict : Bool) (fns : List Fn) : Nat → String → List Label → Option Label
  | 0, _, _ => none
  | n + 1, name, ls =>
    match fns.find? (·.name = name) with
    | some f => labFn strict (labCall strict fns n) f ls
    | none => labDigest strict (joins ls)

end Source

import Verif.Source.Syntax

/-! Which functions the text of a function calls. -/

namespace Source

mutual
/-- The functions and constants named in an expression, in the order of the text, as often as they are named. `Vec::with_capacity` belongs to
the language. -/
def callsE : Expr → List String
  | .lit _ | .var _ => []
  | .const x => [x]
  | .neg e | .cast e _ | .field e _ | .arrayOf e _ => callsE e
  | .bin _ a b | .index a b | .prefix a b | .vecOf a b => callsE a ++ callsE b
  | .slice e lo hi => callsE e ++ callsE lo ++ callsE hi
  | .call f args => (if f = "Vec::with_capacity" then [] else [f]) ++ callsL args
  | .method e _ args => callsE e ++ callsL args
  | .list es | .struct _ es => callsL es

/-- Those in a list of expressions. -/
def callsL : List Expr → List String
  | [] => []
  | e :: es => callsE e ++ callsL es
end

mutual
/-- Those in a statement. -/
def callsS : Stmt → List String
  | .letVar _ _ e | .letSnd _ e => callsE e
  | .assign l e | .assignOp _ l e => callsE l ++ callsE e
  | .mutate l _ args => callsE l ++ callsL args
  | .panic | .break => []
  | .ifElse c t e => callsE c ++ callsB t ++ callsB e
  | .forIn _ lo hi _ body => callsE lo ++ callsE hi ++ callsB body
  | .loop body => callsB body

/-- Those in a block. -/
def callsB : List Stmt → List String
  | [] => []
  | s :: ss => callsS s ++ callsB ss
end

/-- Those in the text of a function. -/
def Fn.calls (f : Fn) : List String := callsB f.body ++ callsE f.result

end Source

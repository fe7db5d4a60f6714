import Lean.Elab.Command
import Verif.Source.Parser

/-!
# From the syntax trees to definitions

`define m fns` adds, for each function or constant `f` of the module `m`, its syntax tree `Source.m.f : Fn`, and the
list `Source.m.all : List Fn` of all of them. The bodies of the loops of `f` become definitions of their own,
`Source.m.f.block1`, `Source.m.f.block2`, ... in the order in which they end.
-/

namespace Source
open Lean Meta

/-- Adds a definition. -/
def addDef (name : Name) (type value : Lean.Expr) : MetaM Unit :=
  addAndCompile (.defnDecl { name, levelParams := [], type, value, hints := .regular 0, safety := .safe })

/-- A list of terms. -/
def listExpr (type : Name) (xs : List Lean.Expr) : MetaM Lean.Expr := mkListLit (mkConst type) xs

mutual
/-- The term for a statement; the bodies of its loops are added as definitions. -/
partial def stmtExpr (fn : Name) (count : IO.Ref Nat) : Stmt → MetaM Lean.Expr
  | .ifElse c t e => do
    return mkApp3 (mkConst ``Stmt.ifElse) (toExpr c) (← listExpr ``Stmt (← t.mapM (stmtExpr fn count)))
      (← listExpr ``Stmt (← e.mapM (stmtExpr fn count)))
  | .forIn x lo hi incl body => do
    return mkApp5 (mkConst ``Stmt.forIn) (toExpr x) (toExpr lo) (toExpr hi) (toExpr incl) (← blockExpr fn count body)
  | .loop body => do
    return mkApp (mkConst ``Stmt.loop) (← blockExpr fn count body)
  | s => return toExpr s

/-- The body of a loop, as a definition. -/
partial def blockExpr (fn : Name) (count : IO.Ref Nat) (body : List Stmt) : MetaM Lean.Expr := do
  let value ← listExpr ``Stmt (← body.mapM (stmtExpr fn count))
  let n := (← count.get) + 1
  count.set n
  let name := fn ++ .mkSimple s!"block{n}"
  addDef name (← mkAppM ``List #[mkConst ``Stmt]) value
  return mkConst name
end

/-- Adds the definitions for the items of a module. -/
def define (m : String) (parsed : Option (List Fn)) : MetaM Unit := do
  match parsed with
  | none => throwError "the parser fails on {m}"
  | some fns =>
    let mut names : List Lean.Expr := []
    for f in fns do
      let name := `Source ++ .mkSimple m ++ .mkSimple ((f.name.splitOn "::").getLast!)
      let count ← IO.mkRef 0
      let body ← listExpr ``Stmt (← f.body.mapM (stmtExpr name count))
      addDef name (mkConst ``Fn) (mkApp6 (mkConst ``Fn.mk) (toExpr f.name) (toExpr f.params) (toExpr f.ret) body (toExpr f.result) (toExpr f.exported))
      names := names ++ [mkConst name]
    addDef (`Source ++ .mkSimple m ++ `all) (← mkAppM ``List #[mkConst ``Fn]) (← listExpr ``Fn names)

theorem parse_of_codes {mod : Nat} {inferred : List (Nat × Nat × Ty)} {text : List String} {codes : List (List Nat)} {r : Option (List Fn)}
    (h : text = codes.map ofCodes) (hc : codes.all areChars = true) (hr : Parser.parseCodes mod inferred codes = r) :
    Parser.parse mod inferred text = r := by
  subst h
  rw [Parser.parse, map_toCodes_ofCodes hc, hr]

/-- `Source.m.codes` are the lines of the text as numbers; `Source.m.parsed` says that the parser makes `Source.m.all` of the text.
The kernel checks this by running the parser. -/
def check (m : String) (mod : Nat) (inferred text : Name) (lines : List String) : MetaM Unit := do
  let ns := `Source ++ .mkSimple m
  let nat := mkConst ``Nat
  let list (type : Lean.Expr) (xs : List Lean.Expr) : Lean.Expr :=
    xs.foldr (mkApp3 (mkConst ``List.cons [.zero]) type) (mkApp (mkConst ``List.nil [.zero]) type)
  let listNat := mkApp (mkConst ``List [.zero]) nat
  let codes := list listNat (lines.map fun l => list nat ((toCodes l).map mkRawNatLit))
  addDecl (.defnDecl { name := ns ++ `codes, levelParams := [], type := mkApp (mkConst ``List [.zero]) listNat, value := codes, hints := .regular 0, safety := .safe })
  let mod := mkRawNatLit mod
  let codes := mkConst (ns ++ `codes)
  let result ← mkAppM ``some #[mkConst (ns ++ `all)]
  let refl (e : Lean.Expr) : MetaM Lean.Expr := mkEqRefl e
  let text := mkConst text
  let inferred := mkConst inferred
  let type ← mkEq (← mkAppM ``Parser.parse #[mod, inferred, text]) result
  let value := mkAppN (mkConst ``parse_of_codes) #[mod, inferred, text, codes, result, ← refl text, ← refl (mkConst ``true), ← refl result]
  addDecl (.thmDecl { name := ns ++ `parsed, levelParams := [], type, value })

end Source

import Verif.Source.Parsed

/-!
# Other types for the variables that are declared without one

`Source.inferred` gives types to variables whose declaration has none. Here the functions with such variables get other types in their
place. The kernel of Lean runs the parser on their files once more, with other types in the table, to see which declarations the table is
used for.
-/

namespace Source
open Lean Meta

/-- The table with other types: of `tmp` and `out` in the functions `squeeze`, of `ptr_word` in `lyra2` and in `lyra2mod`, and of `buf` and
`out` in the functions `sum`. -/
def table (tmp key ptr ptr' buf out : Ty) : List (Nat × Nat × Ty) :=
  [(c!"squeeze", c!"tmp", tmp), (c!"squeeze", c!"out", key), (c!"lyra2", c!"ptr_word", ptr), (c!"lyra2mod", c!"ptr_word", ptr'),
   (c!"sum", c!"buf", buf), (c!"sum", c!"out", out)]

/-- The same declaration with another type. -/
def Stmt.retype (t : Ty) : Stmt → Stmt
  | .letVar x _ e => .letVar x (some t) e
  | s => s

/-- The same function with another type in the declaration that is statement `i` of its body. -/
def Fn.retype (i : Nat) (t : Ty) (f : Fn) : Fn := { f with body := f.body.modify i (Stmt.retype t) }

/-- The crate with other types: the functions `lyra2::squeeze`, `lyra2::lyra2`, `lyra2mod::squeeze`, `lyra2mod::lyra2mod`,
`cubehash::sum` and `bmw::sum` are changed. -/
def lyra2.allOf (tmp key ptr : Ty) : List Fn := (lyra2.all.modify 11 fun f => (f.retype 0 tmp).retype 1 key).modify 14 (Fn.retype 36 ptr)

@[inherit_doc lyra2.allOf]
def lyra2mod.allOf (tmp key ptr : Ty) : List Fn := (lyra2mod.all.modify 11 fun f => (f.retype 0 tmp).retype 1 key).modify 14 (Fn.retype 36 ptr)

@[inherit_doc lyra2.allOf]
def cubehash.allOf (buf out : Ty) : List Fn := cubehash.all.modify 4 fun f => (f.retype 1 buf).retype 9 out

@[inherit_doc lyra2.allOf]
def bmw.allOf (out : Ty) : List Fn := bmw.all.modify 5 (Fn.retype 22 out)

@[inherit_doc lyra2.allOf]
def crateOf (tmp key ptr ptr' buf out : Ty) : List Fn :=
  utils.all ++ (lyra2.allOf tmp key ptr ++ (lyra2mod.allOf tmp key ptr' ++ (cubehash.allOf buf out ++ (bmw.allOf out ++ (lyra2re.all ++
    (lyra2rev2.all ++ (lyra2rev3.all ++ (lyra2z.all ++ []))))))))

/-- Six types that no file declares. -/
def marked : List (Nat × Nat × Ty) := table (.struct "?1") (.struct "?2") (.struct "?3") (.struct "?4") (.struct "?5") (.struct "?6")

/-- Adds the theorem `Source.m.marked`: with the table `marked`, the parser makes the given functions of the text. -/
def checkMarked (m : String) (mod : Nat) (text : Name) (fns : Lean.Expr) : MetaM Unit := do
  let ns := `Source ++ .mkSimple m
  let mod := mkRawNatLit mod
  let table := mkConst ``marked
  let result ← mkAppM ``some #[fns]
  let text := mkConst text
  let type ← mkEq (← mkAppM ``Parser.parse #[mod, table, text]) result
  let value := mkAppN (mkConst ``parse_of_codes)
    #[mod, table, text, mkConst (ns ++ `codes), result, ← mkEqRefl text, ← mkEqRefl (mkConst ``true), ← mkEqRefl result]
  addDecl (.thmDecl { name := ns ++ `marked, levelParams := [], type, value })

/-- The term for a type of the table. -/
def mark (x : String) : Lean.Expr := toExpr (Ty.struct x)

run_meta checkMarked "utils" c!"utils" ``Text.utils (mkConst ``utils.all)
run_meta checkMarked "lyra2re" c!"lyra2re" ``Text.lyra2re (mkConst ``lyra2re.all)
run_meta checkMarked "lyra2rev2" c!"lyra2rev2" ``Text.lyra2rev2 (mkConst ``lyra2rev2.all)
run_meta checkMarked "lyra2rev3" c!"lyra2rev3" ``Text.lyra2rev3 (mkConst ``lyra2rev3.all)
run_meta checkMarked "lyra2z" c!"lyra2z" ``Text.lyra2z (mkConst ``lyra2z.all)
run_meta checkMarked "lyra2" c!"lyra2" ``Text.lyra2 (mkApp3 (mkConst ``lyra2.allOf) (mark "?1") (mark "?2") (mark "?3"))
run_meta checkMarked "lyra2mod" c!"lyra2mod" ``Text.lyra2mod (mkApp3 (mkConst ``lyra2mod.allOf) (mark "?1") (mark "?2") (mark "?4"))
run_meta checkMarked "cubehash" c!"cubehash" ``Text.cubehash (mkApp2 (mkConst ``cubehash.allOf) (mark "?5") (mark "?6"))
run_meta checkMarked "bmw" c!"bmw" ``Text.bmw (mkApp (mkConst ``bmw.allOf) (mark "?6"))

end Source

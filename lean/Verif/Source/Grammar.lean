import Verif.Source.Parser

/-!
# A grammar of the fragment of Rust

The rules by which a sequence of tokens stands for an expression, a statement, a block, a list of items. They do not say how to
read the text: that is what `Source.Parser` does, and `Proofs/Grammar.lean` proves that what the parser yields follows these rules.

The rules are those of the Rust reference, for the fragment that occurs in /repo/src. A rule names all of the tokens that it
covers, in order; nothing is passed over silently. The tokens without a counterpart in the syntax tree are visible as such in the rules:
parentheses, `&`, `mut`, `pub`, attributes, `use` and `struct` declarations, and functions marked `#[test]`.
-/

namespace Source.Grammar
open Parser (Token Scope intTy? binOp? assignOp? resolve lookup inferredTy decodeFields elem last)

open Parser.Token

/-- Types: integers, arrays, vectors, structs. -/
inductive IsBareTy : List Token → Ty → Prop
  | int {n : Nat} {t : IntTy} : intTy? n = some t → IsBareTy [word n] (.int t)
  | array {n k : Nat} {t : IntTy} : intTy? n = some t → IsBareTy [sym c!"[", word n, sym c!";", num k, sym c!"]"] (.array t k)
  | slice {n : Nat} {t : IntTy} : intTy? n = some t → IsBareTy [sym c!"[", word n, sym c!"]"] (.vec t)
  | vec {n : Nat} {t : IntTy} : intTy? n = some t → IsBareTy [word c!"Vec", sym c!"<", word n, sym c!">"] (.vec t)
  | struct {n : Nat} : intTy? n = none → n ≠ c!"Vec" → IsBareTy [word n] (.struct (decode n))

/-- A type, or a reference to it. -/
inductive IsTy : List Token → Ty → Prop
  | bare {ts : List Token} {t : Ty} : IsBareTy ts t → IsTy ts t
  | ref {ts : List Token} {t : Ty} : IsBareTy ts t → IsTy (sym c!"&" :: ts) t

/-- The segments of a path after the first one: `::name`, or `::<t>`, which is the segment `<t>`. -/
inductive IsPath : List Token → List Nat → Prop
  | nil : IsPath [] []
  | name {n : Nat} {ts : List Token} {path : List Nat} : IsPath ts path → IsPath (sym c!"::" :: word n :: ts) (n :: path)
  | type {n : Nat} {ts : List Token} {path : List Nat} : IsPath ts path →
      IsPath (sym c!"::" :: sym c!"<" :: word n :: sym c!">" :: ts) (Parser.wordCode (Parser.wordCode c!"<" (digits n n [])) [c!">"] :: path)

mutual

/-- Expressions, by how strongly they bind.

* 1 to 7: binary operators, the strength being that of `binOp?`; they are left associative;
* 8: casts;
* 9: negation and references;
* 10: indexing, fields, methods;
* 11: atoms.

`st` says whether a struct literal may occur outside of brackets; it may not in the head of an `if` or `for`. -/
inductive IsExpr (sc : Scope) : Nat → Bool → List Token → Expr → Prop
  | weaken {l : Nat} {st : Bool} {ts : List Token} {e : Expr} : IsExpr sc (l + 1) st ts e → IsExpr sc l st ts e
  | bin {n l : Nat} {op : BinOp} {st : Bool} {ts us : List Token} {a b : Expr} : binOp? n = some (l, op) →
      IsExpr sc l st ts a → IsExpr sc (l + 1) st us b → IsExpr sc l st (ts ++ sym n :: us) (.bin op a b)
  | cast {n : Nat} {t : IntTy} {st : Bool} {ts : List Token} {e : Expr} : intTy? n = some t →
      IsExpr sc 8 st ts e → IsExpr sc 8 st (ts ++ [word c!"as", word n]) (.cast e t)
  | neg {st : Bool} {ts : List Token} {e : Expr} : IsExpr sc 9 st ts e → IsExpr sc 9 st (sym c!"-" :: ts) (.neg e)
  | ref {st : Bool} {ts : List Token} {e : Expr} : IsExpr sc 9 st ts e → IsExpr sc 9 st (sym c!"&" :: ts) e
  | index {st : Bool} {ts us : List Token} {e i : Expr} : IsExpr sc 10 st ts e → IsExpr sc 1 true us i →
      IsExpr sc 10 st (ts ++ sym c!"[" :: (us ++ [sym c!"]"])) (.index e i)
  | prefix {st : Bool} {ts us : List Token} {e hi : Expr} : IsExpr sc 10 st ts e → IsExpr sc 1 true us hi →
      IsExpr sc 10 st (ts ++ sym c!"[" :: sym c!".." :: (us ++ [sym c!"]"])) (.prefix e hi)
  | slice {st : Bool} {ts us vs : List Token} {e lo hi : Expr} : IsExpr sc 10 st ts e → IsExpr sc 1 true us lo → IsExpr sc 1 true vs hi →
      IsExpr sc 10 st (ts ++ sym c!"[" :: (us ++ sym c!".." :: (vs ++ [sym c!"]"]))) (.slice e lo hi)
  | field {n : Nat} {st : Bool} {ts : List Token} {e : Expr} : IsExpr sc 10 st ts e →
      IsExpr sc 10 st (ts ++ [sym c!".", word n]) (.field e (decode n))
  | method {n : Nat} {st : Bool} {ts us : List Token} {e : Expr} {as : List Expr} : IsExpr sc 10 st ts e → IsArgs sc c!")" us as →
      IsExpr sc 10 st (ts ++ sym c!"." :: word n :: sym c!"(" :: us) (.method e (decode n) as)
  | num {n : Nat} {st : Bool} : IsExpr sc 11 st [num n] (.lit n)
  | paren {st : Bool} {ts : List Token} {e : Expr} : IsExpr sc 1 true ts e → IsExpr sc 11 st (sym c!"(" :: (ts ++ [sym c!")"])) e
  | list {st : Bool} {ts : List Token} {es : List Expr} : IsArgs sc c!"]" ts es → IsExpr sc 11 st (sym c!"[" :: ts) (.list es)
  | arrayOf {n : Nat} {st : Bool} {ts : List Token} {e : Expr} : IsExpr sc 1 true ts e →
      IsExpr sc 11 st (sym c!"[" :: (ts ++ [sym c!";", num n, sym c!"]"])) (.arrayOf e n)
  | vec {st : Bool} : IsExpr sc 11 st [word c!"vec", sym c!"!", sym c!"[", sym c!"]"] (.list [])
  | vecOf {st : Bool} {ts us : List Token} {e n : Expr} : IsExpr sc 1 true ts e → IsExpr sc 1 true us n →
      IsExpr sc 11 st (word c!"vec" :: sym c!"!" :: sym c!"[" :: (ts ++ sym c!";" :: (us ++ [sym c!"]"]))) (.vecOf e n)
  | call {n : Nat} {path : List Nat} {st : Bool} {ts us : List Token} {as : List Expr} : n ≠ c!"vec" → IsPath ts path → IsArgs sc c!")" us as →
      IsExpr sc 11 st (word n :: (ts ++ sym c!"(" :: us)) (.call (resolve sc (n :: path)) as)
  | struct {n : Nat} {decl : List (Nat × Ty)} {ts : List Token} {es : List Expr} : n ≠ c!"vec" → lookup n sc.structs = some decl →
      IsInits sc ts (decl.map Prod.fst) es → IsExpr sc 11 true (word n :: sym c!"{" :: ts) (.struct (decodeFields decl) es)
  | const {n : Nat} {st : Bool} : n ≠ c!"vec" → elem n sc.consts = true → IsExpr sc 11 st [word n] (.const (resolve sc [n]))
  | var {n : Nat} {st : Bool} : n ≠ c!"vec" → elem n sc.consts = false → IsExpr sc 11 st [word n] (.var (decode n))

/-- Expressions separated by commas, and the closing symbol; a comma may precede it. -/
inductive IsArgs (sc : Scope) : Nat → List Token → List Expr → Prop
  | close {n : Nat} : IsArgs sc n [sym n] []
  | last {n : Nat} {ts : List Token} {e : Expr} : IsExpr sc 1 true ts e → IsArgs sc n (ts ++ [sym n]) [e]
  | cons {n : Nat} {ts us : List Token} {e : Expr} {es : List Expr} : IsExpr sc 1 true ts e → IsArgs sc n us es →
      IsArgs sc n (ts ++ sym c!"," :: us) (e :: es)

/-- `name: value` for each of the given names, in their order, separated by commas, and the closing brace. -/
inductive IsInits (sc : Scope) : List Token → List Nat → List Expr → Prop
  | close : IsInits sc [sym c!"}"] [] []
  | last {n : Nat} {ts : List Token} {e : Expr} : IsExpr sc 1 true ts e → IsInits sc (word n :: sym c!":" :: (ts ++ [sym c!"}"])) [n] [e]
  | cons {n : Nat} {ns : List Nat} {ts us : List Token} {e : Expr} {es : List Expr} : IsExpr sc 1 true ts e → IsInits sc us ns es →
      IsInits sc (word n :: sym c!":" :: (ts ++ sym c!"," :: us)) (n :: ns) (e :: es)

end

/-- The name of a variable; `mut` may precede. -/
inductive IsName : List Token → Nat → Prop
  | plain {n : Nat} : n ≠ c!"mut" → IsName [word n] n
  | mutable {n : Nat} : IsName [word c!"mut", word n] n

/-- Words with which a statement of its own kind, or its continuation, begins. -/
def keywords : List Nat := [c!"let", c!"if", c!"for", c!"loop", c!"break", c!"panic", c!"else"]

/-- The sequence does not begin with such a word. -/
def NoKeyword (ts : List Token) : Prop := ∀ n us, ts = word n :: us → n ∉ keywords

/-- `..=` includes the upper bound, `..` does not. -/
inductive IsRange : Nat → Bool → Prop
  | incl : IsRange c!"..=" true
  | excl : IsRange c!".." false

mutual

/-- Statements. A call of `panic!` does not include the semicolon that may follow. -/
inductive IsStmt (sc : Scope) : List Token → Stmt → Prop
  | letSnd {n : Nat} {ms ts : List Token} {e : Expr} : IsName ms n → IsExpr sc 1 true ts e →
      IsStmt sc (word c!"let" :: sym c!"(" :: word c!"_" :: sym c!"," :: (ms ++ sym c!")" :: sym c!"=" :: (ts ++ [sym c!";"])))
        (.letSnd (decode n) e)
  | letTyped {n : Nat} {ms ts us : List Token} {t : Ty} {e : Expr} : IsName ms n → IsTy ts t → IsExpr sc 1 true us e →
      IsStmt sc (word c!"let" :: (ms ++ sym c!":" :: (ts ++ sym c!"=" :: (us ++ [sym c!";"])))) (.letVar (decode n) (some t) e)
  | letVar {n : Nat} {ms ts : List Token} {e : Expr} : IsName ms n → IsExpr sc 1 true ts e →
      IsStmt sc (word c!"let" :: (ms ++ sym c!"=" :: (ts ++ [sym c!";"]))) (.letVar (decode n) (inferredTy sc.fn n sc.inferred) e)
  | ifThen {ts us : List Token} {c : Expr} {ss : List Stmt} : IsExpr sc 1 false ts c → IsBlock sc us ss none →
      IsStmt sc (word c!"if" :: (ts ++ sym c!"{" :: us)) (.ifElse c ss [])
  | ifElse {ts us vs : List Token} {c : Expr} {ss ss' : List Stmt} : IsExpr sc 1 false ts c → IsBlock sc us ss none →
      IsBlock sc vs ss' none → IsStmt sc (word c!"if" :: (ts ++ sym c!"{" :: (us ++ word c!"else" :: sym c!"{" :: vs))) (.ifElse c ss ss')
  | forIn {n r : Nat} {incl : Bool} {ts us vs : List Token} {lo hi : Expr} {ss : List Stmt} : IsExpr sc 1 false ts lo → IsRange r incl →
      IsExpr sc 1 false us hi → IsBlock sc vs ss none →
      IsStmt sc (word c!"for" :: word n :: word c!"in" :: (ts ++ sym r :: (us ++ sym c!"{" :: vs))) (.forIn (decode n) lo hi incl ss)
  | loop {ts : List Token} {ss : List Stmt} : IsBlock sc ts ss none → IsStmt sc (word c!"loop" :: sym c!"{" :: ts) (.loop ss)
  | break : IsStmt sc [word c!"break", sym c!";"] .break
  | panic : IsStmt sc [word c!"panic", sym c!"!", sym c!"(", sym c!")"] .panic
  | assign {ts us : List Token} {a b : Expr} : NoKeyword ts → IsExpr sc 1 true ts a → IsExpr sc 1 true us b →
      IsStmt sc (ts ++ sym c!"=" :: (us ++ [sym c!";"])) (.assign a b)
  | assignOp {n : Nat} {op : BinOp} {ts us : List Token} {a b : Expr} : assignOp? n = some op → NoKeyword ts → IsExpr sc 1 true ts a →
      IsExpr sc 1 true us b → IsStmt sc (ts ++ sym n :: (us ++ [sym c!";"])) (.assignOp op a b)
  | mutate {ts : List Token} {a : Expr} {m : String} {as : List Expr} : NoKeyword ts → IsExpr sc 1 true ts (.method a m as) →
      IsStmt sc (ts ++ [sym c!";"]) (.mutate a m as)

/-- The statements of a block, and the expression that ends it, if any; with the closing brace, without the opening one. -/
inductive IsBlock (sc : Scope) : List Token → List Stmt → Option Expr → Prop
  | close : IsBlock sc [sym c!"}"] [] none
  | value {ts : List Token} {e : Expr} : NoKeyword ts → IsExpr sc 1 true ts e → IsBlock sc (ts ++ [sym c!"}"]) [] (some e)
  | empty {ts : List Token} {ss : List Stmt} {e : Option Expr} : IsBlock sc ts ss e → IsBlock sc (sym c!";" :: ts) ss e
  | cons {ts us : List Token} {s : Stmt} {ss : List Stmt} {e : Option Expr} : IsStmt sc ts s → IsBlock sc us ss e →
      IsBlock sc (ts ++ us) (s :: ss) e

end

/-- `name: type` separated by commas, and the closing symbol; a comma may precede it. -/
inductive IsDecls : Nat → List Token → List (Nat × Ty) → Prop
  | close {k : Nat} : IsDecls k [sym k] []
  | last {k n : Nat} {ms ts : List Token} {t : Ty} : IsName ms n → IsTy ts t → IsDecls k (ms ++ sym c!":" :: (ts ++ [sym k])) [(n, t)]
  | cons {k n : Nat} {ms ts us : List Token} {t : Ty} {ds : List (Nat × Ty)} : IsName ms n → IsTy ts t → IsDecls k us ds →
      IsDecls k (ms ++ sym c!":" :: (ts ++ sym c!"," :: us)) ((n, t) :: ds)

/-- Tokens in which every opening brace has its closing one. -/
inductive Balanced : List Token → Prop
  | nil : Balanced []
  | token {t : Token} {ts : List Token} : t ≠ sym c!"{" → t ≠ sym c!"}" → Balanced ts → Balanced (t :: ts)
  | group {ts us : List Token} : Balanced ts → Balanced us → Balanced (sym c!"{" :: (ts ++ sym c!"}" :: us))

/-- `pub`, or nothing. -/
inductive IsPub : List Token → Bool → Prop
  | no : IsPub [] false
  | yes : IsPub [word c!"pub"] true

/-- The items of a file, each in the scope of those before it. A constant is a function without parameters. `test`: the attribute
`#[test]` precedes. -/
inductive IsItems : Scope → Bool → List Token → List Fn → Prop
  | nil {sc : Scope} {test : Bool} : IsItems sc test [] []
  | attribute {sc : Scope} {test : Bool} {n : Nat} {ts us : List Token} {fns : List Fn} : sym c!"]" ∉ ts →
      IsItems sc (test || Nat.beq n c!"test") us fns → IsItems sc test (sym c!"#" :: sym c!"[" :: word n :: (ts ++ sym c!"]" :: us)) fns
  | useAs {sc : Scope} {test : Bool} {n m : Nat} {path : List Nat} {ts us : List Token} {fns : List Fn} : IsPath ts path →
      IsItems sc false us fns →
      IsItems sc test (word c!"use" :: word n :: (ts ++ word c!"as" :: word m :: sym c!";" :: us)) fns
  | use {sc : Scope} {test : Bool} {n : Nat} {path : List Nat} {ts us : List Token} {fns : List Fn} : IsPath ts path →
      IsItems (if n = c!"crate" then { sc with uses := (last n path, path) :: sc.uses } else sc) false us fns →
      IsItems sc test (word c!"use" :: word n :: (ts ++ sym c!";" :: us)) fns
  | const {sc : Scope} {b test : Bool} {n : Nat} {ps ts us vs : List Token} {t : Ty} {e : Expr} {fns : List Fn} : IsPub ps b → IsTy ts t →
      IsExpr sc 1 true us e → IsItems { sc with consts := n :: sc.consts } false vs fns →
      IsItems sc test (ps ++ word c!"const" :: word n :: sym c!":" :: (ts ++ sym c!"=" :: (us ++ sym c!";" :: vs)))
        ({ name := resolve { sc with uses := [] } [n], params := [], ret := t, body := [], result := e, exported := b } :: fns)
  | struct {sc : Scope} {b test : Bool} {n : Nat} {ps ts us : List Token} {ds : List (Nat × Ty)} {fns : List Fn} : IsPub ps b →
      IsDecls c!"}" ts ds → IsItems { sc with structs := (n, ds) :: sc.structs } false us fns →
      IsItems sc test (ps ++ word c!"struct" :: word n :: sym c!"{" :: (ts ++ us)) fns
  | test {sc : Scope} {b : Bool} {n : Nat} {ps ts us vs : List Token} {fns : List Fn} : IsPub ps b → sym c!"{" ∉ ts → Balanced us →
      IsItems sc false vs fns → IsItems sc true (ps ++ word c!"fn" :: word n :: (ts ++ sym c!"{" :: (us ++ sym c!"}" :: vs))) fns
  | fn {sc : Scope} {b : Bool} {n : Nat} {ps ts us vs ws : List Token} {ds : List (Nat × Ty)} {t : Ty} {ss : List Stmt} {e : Expr} {fns : List Fn} :
      IsPub ps b → IsDecls c!")" ts ds → IsTy us t → IsBlock { sc with fn := n } vs ss (some e) → IsItems sc false ws fns →
      IsItems sc false (ps ++ word c!"fn" :: word n :: sym c!"(" :: (ts ++ sym c!"->" :: (us ++ sym c!"{" :: (vs ++ ws))))
        ({ name := resolve { sc with uses := [] } [n], params := decodeFields ds, ret := t, body := ss, result := e, exported := b } :: fns)

/-- The modules that the root of a crate declares, and whether they are public. -/
inductive IsModules : List Token → List (Nat × Bool) → Prop
  | nil : IsModules [] []
  | cons {b : Bool} {n : Nat} {ps ts : List Token} {ms : List (Nat × Bool)} : IsPub ps b → IsModules ts ms →
      IsModules (ps ++ word c!"mod" :: word n :: sym c!";" :: ts) ((n, b) :: ms)

end Source.Grammar

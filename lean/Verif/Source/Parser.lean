import Verif.Source.Syntax
import Verif.Source.Code

/-!
# From the text of a source file to its functions

A lexer and a recursive descent parser for the fragment of Rust used in /repo/src. Names and symbols are numbers
(`Source.Code`), and all recursion is over a number (`fuel`) that is larger than the text is long: this lets the kernel
run the parser, and `Source.Crate` proves what it makes of each file.

What is dropped: comments, attributes, `mut`, references (`&`), and the functions marked `#[test]`.
What is resolved: the names of constants and of functions are replaced with their full paths, using the `use`
declarations at the head of the file.
-/

namespace Source.Parser

/-- Words, numerals, string literals and symbols; `bad` is anything else. -/
inductive Token
  | word (n : Nat)
  | num (n : Nat)
  | str
  | sym (n : Nat)
  | bad
deriving Repr, Inhabited

/-! ## Lexer -/

/-- Is the number in the list? -/
def elem (x : Nat) : List Nat → Bool
  | [] => false
  | y :: ys => bif Nat.beq x y then true else elem x ys

/-- Symbols of two characters. -/
def symbols2 : List Nat :=
  [c!"::", c!"->", c!"..", c!"==", c!"!=", c!"<=", c!">=", c!"&&", c!"||", c!"<<", c!">>", c!"+=", c!"-=", c!"*=", c!"/=", c!"^=",
   c!"|=", c!"&=", c!"=>"]

/-- Symbols of one character. -/
def symbols1 : List Nat :=
  [c!"(", c!")", c!"[", c!"]", c!"{", c!"}", c!",", c!";", c!":", c!".", c!"+", c!"-", c!"*", c!"/", c!"%", c!"&", c!"|", c!"^", c!"<",
   c!">", c!"=", c!"#", c!"!", c!"?"]

def between (a b c : Nat) : Bool := Nat.ble a c && Nat.ble c b
def isDigit (c : Nat) : Bool := between c!"0" c!"9" c
/-- Letters, digits and `_`. -/
def isWordChar (c : Nat) : Bool := between c!"a" c!"z" c || between c!"0" c!"9" c || between c!"A" c!"Z" c || Nat.beq c c!"_"
def isSpace (c : Nat) : Bool := Nat.beq c c!" " || Nat.beq c c!"\n" || Nat.beq c c!"\t" || Nat.beq c c!"\r"

def digit (c : Nat) : Nat :=
  bif isDigit c then c - c!"0"
  else bif between c!"a" c!"f" c then c - c!"a" + 10
  else bif between c!"A" c!"F" c then c - c!"A" + 10 else 99

/-- The numeral with the given digits; `_` is a separator. -/
def value (base : Nat) : Nat → List Nat → Token
  | acc, [] => .num acc
  | acc, c :: cs =>
    bif Nat.beq c c!"_" then value base acc cs
    else bif Nat.blt (digit c) base then value base (acc * base + digit c) cs
    else .bad

def numeralToken : List Nat → Token
  | [] => .bad
  | c :: cs => match cs with
    | [] => value 10 0 [c]
    | d :: ds => bif Nat.beq c c!"0" && Nat.beq d c!"x" then value 16 0 ds else value 10 0 (c :: d :: ds)

/-- The token of a word: a numeral if it begins with a digit. -/
def wordToken (cur : Nat) : Token := match digits cur cur [] with
  | [] => .bad
  | c :: cs => bif isDigit c then numeralToken (c :: cs) else .word cur

/-- Ends the word, if there is one: adds it to the tokens. -/
def flush (cur : Nat) (acc : List Token) : List Token := bif Nat.beq cur 0 then acc else wordToken cur :: acc

/-- Where a line begins or ends: in the program, in a string literal, or in a comment. -/
inductive Mode
  | code | string | comment

/-- Adds the tokens of the rest of a line, the last one first. `cur` is the word being read. Escapes in string literals and comments within
comments are not supported: they are `bad`. -/
def lexLine : List Nat → Mode → Nat → List Token → Mode × List Token
  | [], mode, cur, acc => (mode, flush cur acc)
  | c :: cs, .string, cur, acc =>
    bif Nat.beq c c!"\"" then lexLine cs .code cur acc
    else bif Nat.beq c c!"\\" then lexLine cs .string cur (.bad :: acc)
    else lexLine cs .string cur acc
  | c :: cs, .comment, cur, acc => match cs with
    | [] => (.comment, acc)
    | d :: ds =>
      bif Nat.beq (c * 0x200000 + d) c!"*/" then lexLine ds .code cur acc
      else bif Nat.beq (c * 0x200000 + d) c!"/*" then lexLine (d :: ds) .comment cur (.bad :: acc)
      else lexLine (d :: ds) .comment cur acc
  | c :: cs, .code, cur, acc =>
    bif isWordChar c then lexLine cs .code (cur * 0x200000 + c) acc
    else bif isSpace c then lexLine cs .code 0 (flush cur acc)
    else bif Nat.beq c c!"\"" then lexLine cs .string 0 (.str :: flush cur acc)
    else match cs with
      | [] => (.code, (bif elem c symbols1 then .sym c else .bad) :: flush cur acc)
      | d :: ds =>
        bif elem (c * 0x200000 + d) symbols2 then match ds with
          | [] => (.code, .sym (c * 0x200000 + d) :: flush cur acc)
          | e :: es =>
            bif Nat.beq (c * 0x200000 + d) c!".." && Nat.beq e c!"=" then lexLine es .code 0 (.sym c!"..=" :: flush cur acc)
            else lexLine (e :: es) .code 0 (.sym (c * 0x200000 + d) :: flush cur acc)
        else bif Nat.beq (c * 0x200000 + d) c!"//" then (.code, flush cur acc)
        else bif Nat.beq (c * 0x200000 + d) c!"/*" then lexLine ds .comment 0 (flush cur acc)
        else lexLine (d :: ds) .code 0 ((bif elem c symbols1 then .sym c else .bad) :: flush cur acc)

/-- The tokens of the lines, the last one first. String literals and comments must end. -/
def lex : List (List Nat) → Mode → List Token → List Token
  | [], .code, acc => acc
  | [], _, acc => .bad :: acc
  | l :: ls, mode, acc => match lexLine l mode 0 acc with
    | (mode, acc) => lex ls mode acc

/-! ## Parser -/

/-- A parser consumes tokens and yields a value, or fails. -/
def P (α : Type) : Type := List Token → Option (α × List Token)

instance : Monad P where
  pure a := fun ts => some (a, ts)
  bind p f := fun ts => match p ts with
    | some (a, ts) => f a ts
    | none => none

def fail {α : Type} : P α := fun _ => none

def ensure (b : Bool) : P Unit := bif b then pure () else fail

/-- Is the next token the symbol? -/
def isSym (s : Nat) : P Bool := fun ts => match ts with
  | .sym t :: _ => some (Nat.beq s t, ts)
  | _ => some (false, ts)

/-- Consumes the symbol, if it is the next token. -/
def accept (s : Nat) : P Bool := fun ts => match ts with
  | .sym t :: rest => bif Nat.beq s t then some (true, rest) else some (false, ts)
  | _ => some (false, ts)

/-- Consumes the word, if it is the next token. -/
def acceptWord (s : Nat) : P Bool := fun ts => match ts with
  | .word t :: rest => bif Nat.beq s t then some (true, rest) else some (false, ts)
  | _ => some (false, ts)

def expect (s : Nat) : P Unit := fun ts => match ts with
  | .sym t :: rest => bif Nat.beq s t then some ((), rest) else none
  | _ => none

def ident : P Nat := fun ts => match ts with
  | .word n :: rest => some (n, rest)
  | _ => none

def numeral : P Nat := fun ts => match ts with
  | .num n :: rest => some (n, rest)
  | _ => none

/-- An optional symbol or word. -/
def skip (p : P Bool) : P Unit := do
  let _ ← p
  pure ()

def intTy? (s : Nat) : Option IntTy :=
  bif Nat.beq s c!"u8" then some .u8
  else bif Nat.beq s c!"u32" then some .u32
  else bif Nat.beq s c!"u64" then some .u64
  else bif Nat.beq s c!"i64" then some .i64
  else bif Nat.beq s c!"usize" then some .usize
  else none

def intTy : P IntTy := do
  match intTy? (← ident) with
  | some t => pure t
  | none => fail

/-- A type. -/
def ty : P Ty := do
  skip (accept c!"&")
  if (← accept c!"[") then
    let t ← intTy
    if (← accept c!";") then
      let n ← numeral
      expect c!"]"
      pure (.array t n)
    else
      expect c!"]"
      pure (.vec t)
  else
    let s ← ident
    if Nat.beq s c!"Vec" then
      expect c!"<"
      let t ← intTy
      expect c!">"
      pure (.vec t)
    else match intTy? s with
      | some t => pure (.int t)
      | none => pure (.struct (decode s))

def lookup {α : Type} (x : Nat) : List (Nat × α) → Option α
  | [] => none
  | (y, a) :: l => bif Nat.beq x y then some a else lookup x l

/-- What the names in a file stand for. -/
structure Scope where
  /-- Name of the module. -/
  mod : Nat
  /-- Types that the compiler infers, for `let` without a type: function, variable, type. -/
  inferred : List (Nat × Nat × Ty)
  /-- `use` declarations: last segment of the path and the path without `crate`. -/
  uses : List (Nat × List Nat) := []
  consts : List Nat := []
  /-- Fields of the structs: their names, and the declaration. -/
  structs : List (Nat × List (Nat × Ty)) := []
  /-- The function being parsed. -/
  fn : Nat := 0

/-- The number of a string with the given characters, `acc` being the number of those before. -/
def wordCode : Nat → List Nat → Nat
  | acc, [] => acc
  | acc, c :: cs => wordCode (acc * 0x200000 + c) cs

/-- The number of the string `a::b::c`, `acc` being the number of what precedes. -/
def joinPath : Nat → List Nat → Nat
  | acc, [] => acc
  | acc, [s] => wordCode acc (digits s s [])
  | acc, s :: rest => joinPath (wordCode (wordCode acc (digits s s [])) [c!":", c!":"]) rest

def append : List Nat → List Nat → List Nat
  | [], m => m
  | x :: l, m => x :: append l m

/-- The full path of a function or constant. -/
def resolve (sc : Scope) (path : List Nat) : String :=
  decode (joinPath 0 (match path with
    | [] => []
    | s :: rest => match lookup s sc.uses with
      | some p => append p rest
      | none => match rest with
        | [] => [sc.mod, s]
        | _ :: _ => path))

/-- Binary operators and their binding strength. -/
def binOp? (s : Nat) : Option (Nat × BinOp) :=
  bif Nat.beq s c!"*" then some (7, .mul)
  else bif Nat.beq s c!"/" then some (7, .div)
  else bif Nat.beq s c!"%" then some (7, .rem)
  else bif Nat.beq s c!"+" then some (6, .add)
  else bif Nat.beq s c!"-" then some (6, .sub)
  else bif Nat.beq s c!"<<" then some (5, .shl)
  else bif Nat.beq s c!">>" then some (5, .shr)
  else bif Nat.beq s c!"&" then some (4, .and)
  else bif Nat.beq s c!"^" then some (3, .xor)
  else bif Nat.beq s c!"|" then some (2, .or)
  else bif Nat.beq s c!"==" then some (1, .eq)
  else bif Nat.beq s c!"<" then some (1, .lt)
  else none

/-- Consumes a binary operator of strength at least `lvl`, if it is the next token. -/
def acceptOp (lvl : Nat) : P (Option (Nat × BinOp)) := fun ts => match ts with
  | .sym s :: rest => match binOp? s with
    | some (l, op) => bif Nat.ble lvl l then some (some (l, op), rest) else some (none, ts)
    | none => some (none, ts)
  | _ => some (none, ts)

/-- `e as t`, repeated: binds more strongly than every binary operator. -/
def casts : Nat → Expr → P Expr
  | 0, _ => fail
  | fuel + 1, e => do
    if (← acceptWord c!"as") then casts fuel (.cast e (← intTy)) else pure e

/-- The rest of a path after its first segment. A segment `<t>` stands for type arguments. -/
def pathRest : Nat → P (List Nat)
  | 0 => fail
  | fuel + 1 => do
    if (← accept c!"::") then
      if (← accept c!"<") then
        let t ← ident
        expect c!">"
        pure (wordCode (wordCode c!"<" (digits t t [])) [c!">"] :: (← pathRest fuel))
      else
        let s ← ident
        pure (s :: (← pathRest fuel))
    else pure []

/-- Do the names agree with the declared ones, in order? -/
def sameNames : List (Nat × Expr) → List (Nat × Ty) → Bool
  | [], [] => true
  | (x, _) :: l, (y, _) :: m => Nat.beq x y && sameNames l m
  | _, _ => false

def decodeFields : List (Nat × Ty) → List (String × Ty)
  | [] => []
  | (x, t) :: l => (decode x, t) :: decodeFields l

def values : List (Nat × Expr) → List Expr
  | [] => []
  | (_, e) :: l => e :: values l

/-- The parsers for expressions, which call each other. -/
structure Exprs where
  /-- Operators of strength at least `lvl`, left associative. `st`: may a struct literal occur? -/
  expr (lvl : Nat) (st : Bool) : P Expr
  /-- Continues an operand with the operators of strength at least `lvl` that follow. -/
  ops (lvl : Nat) (st : Bool) (e : Expr) : P Expr
  unary (st : Bool) : P Expr
  atom (st : Bool) : P Expr
  /-- Continues an expression with `[...]`, `.f` and `.m(...)`. -/
  suffix (e : Expr) : P Expr
  /-- Expressions separated by commas up to the closing symbol. -/
  args (close : Nat) : P (List Expr)
  /-- `name: e, ...}` -/
  fieldInits : P (List (Nat × Expr))

/-- One more level of nesting. -/
def Exprs.step (sc : Scope) (fuel : Nat) (r : Exprs) : Exprs where
  expr lvl st := do
    r.ops lvl st (← casts fuel (← r.unary st))
  ops lvl st e := do
    match (← acceptOp lvl) with
    | some (l, op) => r.ops lvl st (.bin op e (← r.expr (l + 1) st))
    | none => pure e
  unary st := do
    if (← accept c!"-") then
      let e ← r.unary st
      pure (.neg e)
    else if (← accept c!"&") then r.unary st
    else r.suffix (← r.atom st)
  atom st := fun ts => match ts with
    | [] => none
    | .str :: _ => none
    | .bad :: _ => none
    | .num n :: rest => some (.lit n, rest)
    | .sym s :: rest =>
      (bif Nat.beq s c!"(" then do
        let e ← r.expr 1 true
        expect c!")"
        pure e
      else bif Nat.beq s c!"[" then do
        if (← accept c!"]") then pure (.list [])
        else
          let e ← r.expr 1 true
          if (← accept c!";") then
            let n ← numeral
            expect c!"]"
            pure (.arrayOf e n)
          else if (← accept c!",") then
            let es ← r.args c!"]"
            pure (.list (e :: es))
          else
            expect c!"]"
            pure (.list [e])
      else fail : P Expr) rest
    | .word s :: rest =>
      (bif Nat.beq s c!"vec" then do
        expect c!"!"
        expect c!"["
        if (← accept c!"]") then pure (.list [])
        else
          let e ← r.expr 1 true
          expect c!";"
          let n ← r.expr 1 true
          expect c!"]"
          pure (.vecOf e n)
      else do
        let path ← pathRest fuel
        if (← accept c!"(") then
          let as ← r.args c!")"
          pure (.call (resolve sc (s :: path)) as)
        else match path with
          | [] =>
            if st && (← isSym c!"{") then
              match lookup s sc.structs with
              | some decl =>
                expect c!"{"
                let inits ← r.fieldInits
                ensure (sameNames inits decl)
                pure (.struct (decodeFields decl) (values inits))
              | none => fail
            else if elem s sc.consts then pure (.const (resolve sc [s]))
            else pure (.var (decode s))
          | _ :: _ => fail : P Expr) rest
  suffix e := do
    if (← accept c!"[") then
      if (← accept c!"..") then
        let hi ← r.expr 1 true
        expect c!"]"
        r.suffix (.prefix e hi)
      else
        let i ← r.expr 1 true
        if (← accept c!"..") then
          let hi ← r.expr 1 true
          expect c!"]"
          r.suffix (.slice e i hi)
        else
          expect c!"]"
          r.suffix (.index e i)
    else if (← accept c!".") then
      let f ← ident
      if (← accept c!"(") then
        let as ← r.args c!")"
        r.suffix (.method e (decode f) as)
      else r.suffix (.field e (decode f))
    else pure e
  args close := do
    if (← accept close) then pure []
    else
      let e ← r.expr 1 true
      if (← accept c!",") then
        let es ← r.args close
        pure (e :: es)
      else
        expect close
        pure [e]
  fieldInits := do
    if (← accept c!"}") then pure []
    else
      let f ← ident
      expect c!":"
      let e ← r.expr 1 true
      if (← accept c!",") then
        let fs ← r.fieldInits
        pure ((f, e) :: fs)
      else
        expect c!"}"
        pure [(f, e)]

/-- The parsers for expressions, up to a depth of nesting. -/
def exprs (sc : Scope) : Nat → Exprs
  | 0 => ⟨fun _ _ => fail, fun _ _ _ => fail, fun _ => fail, fun _ => fail, fun _ => fail, fun _ => fail, fail⟩
  | fuel + 1 => (exprs sc fuel).step sc fuel

/-- An expression, up to a depth of nesting. -/
def expr (sc : Scope) (depth : Nat) (st : Bool) : P Expr := (exprs sc depth).expr 1 st

/-- Type of a variable declared without one. -/
def inferredTy (fn x : Nat) : List (Nat × Nat × Ty) → Option Ty
  | [] => none
  | (f, y, t) :: l => bif Nat.beq f fn && Nat.beq y x then some t else inferredTy fn x l

/-- The operator of a compound assignment. -/
def assignOp? (s : Nat) : Option BinOp :=
  bif Nat.beq s c!"+=" then some .add
  else bif Nat.beq s c!"*=" then some .mul
  else bif Nat.beq s c!"^=" then some .xor
  else none

def acceptAssignOp : P (Option BinOp) := fun ts => match ts with
  | .sym s :: rest => match assignOp? s with
    | some op => some (some op, rest)
    | none => some (none, ts)
  | _ => some (none, ts)

def reverse : List Stmt → List Stmt → List Stmt
  | [], acc => acc
  | s :: ss, acc => reverse ss (s :: acc)

/-- A block without a final expression. -/
def noValue (p : P (List Stmt × Option Expr)) : P (List Stmt) := fun ts => match p ts with
  | some ((ss, none), rest) => some (ss, rest)
  | _ => none

/-- `..=` or `..`: is the upper bound included? -/
def range : P Bool := do
  if (← accept c!"..=") then pure true
  else
    expect c!".."
    pure false

/-- Statements up to the closing brace, and the expression that ends the block, if any. `acc`: the statements so far, the last first. `depth`: nesting of
expressions. -/
def block (sc : Scope) (depth : Nat) : Nat → List Stmt → P (List Stmt × Option Expr)
  | 0, _ => fail
  | fuel + 1, acc => do
    if (← accept c!"}") then pure (reverse acc [], none)
    else if (← accept c!";") then block sc depth fuel acc
    else if (← acceptWord c!"let") then
      if (← accept c!"(") then
        let u ← ident
        ensure (Nat.beq u c!"_")
        expect c!","
        skip (acceptWord c!"mut")
        let x ← ident
        expect c!")"
        expect c!"="
        let e ← expr sc depth true
        expect c!";"
        block sc depth fuel (.letSnd (decode x) e :: acc)
      else
        skip (acceptWord c!"mut")
        let x ← ident
        if (← accept c!":") then
          let t ← ty
          expect c!"="
          let e ← expr sc depth true
          expect c!";"
          block sc depth fuel (.letVar (decode x) (some t) e :: acc)
        else
          expect c!"="
          let e ← expr sc depth true
          expect c!";"
          block sc depth fuel (.letVar (decode x) (inferredTy sc.fn x sc.inferred) e :: acc)
    else if (← acceptWord c!"if") then
      let c ← expr sc depth false
      expect c!"{"
      let t ← noValue (block sc depth fuel [])
      if (← acceptWord c!"else") then
        expect c!"{"
        let e ← noValue (block sc depth fuel [])
        block sc depth fuel (.ifElse c t e :: acc)
      else block sc depth fuel (.ifElse c t [] :: acc)
    else if (← acceptWord c!"for") then
      let x ← ident
      ensure (← acceptWord c!"in")
      let lo ← expr sc depth false
      let incl ← range
      let hi ← expr sc depth false
      expect c!"{"
      let b ← noValue (block sc depth fuel [])
      block sc depth fuel (.forIn (decode x) lo hi incl b :: acc)
    else if (← acceptWord c!"loop") then
      expect c!"{"
      let b ← noValue (block sc depth fuel [])
      block sc depth fuel (.loop b :: acc)
    else if (← acceptWord c!"break") then
      expect c!";"
      block sc depth fuel (.break :: acc)
    else if (← acceptWord c!"panic") then
      expect c!"!"
      expect c!"("
      expect c!")"
      block sc depth fuel (.panic :: acc)
    else if (← acceptWord c!"else") then fail
    else
      let e ← expr sc depth true
      if (← accept c!"=") then
        let r ← expr sc depth true
        expect c!";"
        block sc depth fuel (.assign e r :: acc)
      else match (← acceptAssignOp) with
        | some op =>
          let r ← expr sc depth true
          expect c!";"
          block sc depth fuel (.assignOp op e r :: acc)
        | none =>
          if (← accept c!"}") then pure (reverse acc [], some e)
          else
            expect c!";"
            match e with
            | .method r m as =>
              block sc depth fuel (.mutate r m as :: acc)
            | _ => fail

/-- `name: type, ...` up to the closing symbol. -/
def decls (close : Nat) : Nat → P (List (Nat × Ty))
  | 0 => fail
  | fuel + 1 => do
    if (← accept close) then pure []
    else
      skip (acceptWord c!"mut")
      let x ← ident
      expect c!":"
      let t ← ty
      if (← accept c!",") then
        let ds ← decls close fuel
        pure ((x, t) :: ds)
      else
        expect close
        pure [(x, t)]

/-- Skips a group in braces, after the opening brace. -/
def skipBraces : Nat → List Token → Option (Unit × List Token)
  | _, [] => none
  | depth, t :: ts => match t with
    | .sym s =>
      bif Nat.beq s c!"{" then skipBraces (depth + 1) ts
      else bif Nat.beq s c!"}" then (match depth with
        | 0 => some ((), ts)
        | d + 1 => skipBraces d ts)
      else skipBraces depth ts
    | _ => skipBraces depth ts

/-- Skips up to and including the symbol. -/
def skipTo (x : Nat) : List Token → Option (Unit × List Token)
  | [] => none
  | t :: ts => match t with
    | .sym s => bif Nat.beq s x then some ((), ts) else skipTo x ts
    | _ => skipTo x ts

def last : Nat → List Nat → Nat
  | x, [] => x
  | _, y :: l => last y l

/-- The items of a file. `test`: the attribute `#[test]` precedes. -/
def items (depth : Nat) : Nat → Scope → Bool → P (List Fn)
  | 0, _, _ => fail
  | fuel + 1, sc, test => fun ts => match ts with
    | [] => some ([], [])
    | _ :: _ => (do
      if (← accept c!"#") then
        expect c!"["
        let a ← ident
        skipTo c!"]"
        items depth fuel sc (test || Nat.beq a c!"test")
      else
        let exported ← acceptWord c!"pub"
        if (← acceptWord c!"use") then
          ensure (!exported)
          let s ← ident
          let path ← pathRest fuel
          if (← acceptWord c!"as") then
            let _ ← ident
            expect c!";"
            items depth fuel sc false
          else
            expect c!";"
            items depth fuel (bif Nat.beq s c!"crate" then { sc with uses := (last s path, path) :: sc.uses } else sc) false
        else if (← acceptWord c!"const") then
          let x ← ident
          expect c!":"
          let t ← ty
          expect c!"="
          let e ← expr sc depth true
          expect c!";"
          let fns ← items depth fuel { sc with consts := x :: sc.consts } false
          pure ({ name := resolve { sc with uses := [] } [x], params := [], ret := t, body := [], result := e, exported } :: fns)
        else if (← acceptWord c!"struct") then
          let x ← ident
          expect c!"{"
          let fs ← decls c!"}" fuel
          items depth fuel { sc with structs := (x, fs) :: sc.structs } false
        else
          ensure (← acceptWord c!"fn")
          let x ← ident
          if test then
            skipTo c!"{"
            skipBraces 0
            items depth fuel sc false
          else
            expect c!"("
            let ps ← decls c!")" fuel
            expect c!"->"
            let t ← ty
            expect c!"{"
            let (ss, e) ← block { sc with fn := x } depth fuel []
            match e with
            | some e =>
              let fns ← items depth fuel sc false
              pure ({ name := resolve { sc with uses := [] } [x], params := decodeFields ps, ret := t, body := ss, result := e, exported } :: fns)
            | none => fail : P (List Fn)) ts

/-- The tokens in reverse order, if none is `bad`. -/
def reverseTokens : List Token → List Token → Option (List Token)
  | [], acc => some acc
  | t :: ts, acc => match t with
    | .bad => none
    | _ => reverseTokens ts (t :: acc)

/-- There are no newlines within the lines. -/
def areLines : List (List Nat) → Bool
  | [] => true
  | l :: ls => bif elem c!"\n" l then false else areLines ls

/-- The tokens of the lines. -/
def tokens (lines : List (List Nat)) : Option (List Token) :=
  bif areLines lines then reverseTokens (lex lines .code []) [] else none

/-- The functions and constants of the file with the given lines; `mod` is the name of the module. -/
def parseCodes (mod : Nat) (inferred : List (Nat × Nat × Ty)) (lines : List (List Nat)) : Option (List Fn) :=
  match tokens lines with
  | some ts => match items 300 100000 { mod, inferred } false ts with
    | some (fns, _) => some fns
    | none => none
  | none => none

/-- The functions and constants of the file with the given lines; `mod` is the name of the module. -/
def parse (mod : Nat) (inferred : List (Nat × Nat × Ty)) (lines : List String) : Option (List Fn) :=
  parseCodes mod inferred (lines.map toCodes)

end Source.Parser

import Verif.Proofs.GrammarBlocks
import Verif.Proofs.Lexical
import Verif.Proofs.Names
import Verif.Source.Parsed

/-! Property C69: the syntax trees that the theorems on the text run follow from the text by the rules of a grammar
(`Source/Lexical.lean` for the tokens, `Source/Grammar.lean` for what they stand for), and by these rules nothing else does. -/

namespace Props
open Source Source.Grammar Source.Lexical
open Source.Parser (Token Scope)
open Source.Parser.Token (word sym)

/-- The characters of a text with the given lines. -/
def characters (lines : List String) : List Nat := Lexical.text (lines.map toCodes)

/-- The lines are those of a file with the given functions and constants. `inferred` are the types of variables declared without one:
`Source.inferred`, if they are those that the compiler infers (C71). -/
def IsFile (inferred : List (Nat × Nat × Ty)) (mod : Nat) (lines : List String) (fns : List Fn) : Prop :=
  ∃ ts, IsTokens (characters lines) ts ∧ IsItems { mod, inferred } false ts fns

/-- The functions and constants of the files of a crate. -/
inductive IsCrate (inferred : List (Nat × Nat × Ty)) : List (Nat × List String) → List Fn → Prop
  | nil : IsCrate inferred [] []
  | cons {mod : Nat} {lines : List String} {files : List (Nat × List String)} {fns fns' : List Fn} :
      IsFile inferred mod lines fns → IsCrate inferred files fns' → IsCrate inferred ((mod, lines) :: files) (fns ++ fns')

theorem bounded_lines (lines : List String) : ∀ l ∈ lines.map toCodes, Proofs.Lexical.Bounded l := by
  intro l hl
  obtain ⟨s, _, rfl⟩ := List.mem_map.1 hl
  exact Proofs.Lexical.bounded_toCodes s

theorem isFile_of_parse {inferred : List (Nat × Nat × Ty)} {mod : Nat} {lines : List String} {fns : List Fn}
    (h : Parser.parse mod inferred lines = some fns) : IsFile inferred mod lines fns := by
  unfold Parser.parse Parser.parseCodes at h
  cases ht : Parser.tokens (lines.map toCodes) with
  | none => rw [ht] at h; cases h
  | some ts =>
    rw [ht] at h
    dsimp only at h
    cases hi : Parser.items 300 100000 { mod, inferred } false ts with
    | none => rw [hi] at h; cases h
    | some r =>
      rw [hi] at h
      cases h
      exact ⟨ts, ((Proofs.Lexical.tokens_iff (bounded_lines lines) ts).1 ht).2, (Proofs.Grammar.items_sound hi).2⟩

theorem isFile_unique {inferred : List (Nat × Nat × Ty)} {mod : Nat} {lines : List String} {fns fns' : List Fn}
    (h : IsFile inferred mod lines fns) (h' : IsFile inferred mod lines fns') : fns = fns' := by
  obtain ⟨ts, ht, hi⟩ := h
  obtain ⟨ts', ht', hi'⟩ := h'
  cases Proofs.Lexical.tokens_unique (Proofs.Lexical.bounded_text (bounded_lines lines)) ht ht'
  exact Proofs.Grammar.items_unique hi hi'

theorem isCrate_of_parseFiles : ∀ {files : List (Nat × List String)} {fns : List Fn}, parseFiles files = some fns → IsCrate inferred files fns
  | [], fns, h => by cases h; exact .nil
  | (mod, lines) :: files, fns, h => by
    rw [parseFiles] at h
    cases hp : Parser.parse mod inferred lines with
    | none => rw [hp] at h; cases h
    | some fns =>
      cases hr : parseFiles files with
      | none => rw [hp, hr] at h; cases h
      | some rest =>
        rw [hp, hr] at h
        cases h
        exact .cons (isFile_of_parse hp) (isCrate_of_parseFiles hr)

theorem isCrate_unique {inferred : List (Nat × Nat × Ty)} {files : List (Nat × List String)} {fns fns' : List Fn}
    (h : IsCrate inferred files fns) (h' : IsCrate inferred files fns') : fns = fns' := by
  induction h generalizing fns' with
  | nil => cases h'; rfl
  | cons hf _ ih =>
    cases h' with
    | cons hf' h' => rw [isFile_unique hf hf', ih h']

/-- **C69** (i) By the rules of the grammar the files of /repo/src contain the functions and constants of `crate`, and no others. -/
theorem C69_crate (fns : List Fn) : IsCrate inferred files fns ↔ fns = crate :=
  ⟨fun h => isCrate_unique h (isCrate_of_parseFiles parseFiles_files), fun h => h ▸ isCrate_of_parseFiles parseFiles_files⟩

/-- **C69** (ii) The grammar is unambiguous: no sequence of tokens stands for two different expressions, blocks, or lists of items. -/
theorem C69_unambiguous (sc : Scope) (ts : List Token) :
    (∀ st e e', IsExpr sc 1 st ts e → IsExpr sc 1 st ts e' → e = e') ∧
      (∀ ss ss' e e', IsBlock sc ts ss e → IsBlock sc ts ss' e' → ss = ss' ∧ e = e') ∧
      (∀ test fns fns', IsItems sc test ts fns → IsItems sc test ts fns' → fns = fns') :=
  ⟨fun _ _ _ => Proofs.Grammar.expr_unique, fun _ _ _ _ => Proofs.Grammar.block_unique, fun _ _ _ => Proofs.Grammar.items_unique⟩

/-- **C69** (iii) No text consists of two different sequences of tokens. -/
theorem C69_tokens (text : String) (ts ts' : List Token) (h : IsTokens (toCodes text) ts) (h' : IsTokens (toCodes text) ts') : ts = ts' :=
  Proofs.Lexical.tokens_unique (Proofs.Lexical.bounded_toCodes text) h h'

/-- **C69** (iv) The lexer yields the tokens of which the text consists by the rules, if there are such tokens, and nothing else. -/
theorem C69_lexer (lines : List String) (hl : ∀ l ∈ lines, c!"\n" ∉ toCodes l) (ts : List Token) :
    Parser.tokens (lines.map toCodes) = some ts ↔ IsTokens (characters lines) ts := by
  rw [Proofs.Lexical.tokens_iff (bounded_lines lines)]
  refine ⟨fun h => h.2, fun h => ⟨fun l hm => ?_, h⟩⟩
  obtain ⟨s, hs, rfl⟩ := List.mem_map.1 hm
  exact hl s hs

/-- **C69** (v) The parser yields what follows from the grammar, given enough fuel, and nothing else whatever the fuel. -/
theorem C69_parser (sc : Scope) (ts : List Token) (fns : List Fn) :
    (IsItems sc false ts fns ↔ ∃ depth fuel, Parser.items depth fuel sc false ts = some (fns, [])) ∧
      ∀ depth fuel fns' rest, Parser.items depth fuel sc false ts = some (fns', rest) → rest = [] ∧ IsItems sc false ts fns' := by
  refine ⟨⟨fun h => ?_, fun ⟨_, _, h⟩ => (Proofs.Grammar.items_sound h).2⟩, fun _ _ _ _ h => Proofs.Grammar.items_sound h⟩
  obtain ⟨N, h⟩ := Proofs.Grammar.items_complete h
  exact ⟨N, N, h N N (Nat.le_refl N) (Nat.le_refl N)⟩

/-- The binary operators and how strongly they bind. -/
def operators : List (Nat × Nat × BinOp) :=
  [(c!"*", 7, .mul), (c!"/", 7, .div), (c!"%", 7, .rem), (c!"+", 6, .add), (c!"-", 6, .sub), (c!"<<", 5, .shl), (c!">>", 5, .shr),
   (c!"&", 4, .and), (c!"^", 3, .xor), (c!"|", 2, .or), (c!"==", 1, .eq), (c!"<", 1, .lt)]

/-- The types of integers. -/
def integers : List (Nat × IntTy) := [(c!"u8", .u8), (c!"u32", .u32), (c!"u64", .u64), (c!"i64", .i64), (c!"usize", .usize)]

theorem lookup_iff {α : Type} {l : List (Nat × α)} (hl : (l.map Prod.fst).Nodup) {n : Nat} {a : α} : Parser.lookup n l = some a ↔ (n, a) ∈ l := by
  induction l with
  | nil => simp [Parser.lookup]
  | cons p l ih =>
    rw [List.map_cons, List.nodup_cons] at hl
    rw [Parser.lookup, List.mem_cons]
    cases hn : Nat.beq n p.1
    · rw [cond_false, ih hl.2]
      refine ⟨.inr, fun h => h.resolve_left fun h => ?_⟩
      rw [← h, Nat.beq_refl] at hn
      cases hn
    · have hn := Nat.eq_of_beq_eq_true hn
      rw [cond_true]
      refine ⟨fun h => .inl ?_, fun h => h.elim (fun h => by rw [← h]) fun h => ?_⟩
      · cases h; rw [hn]
      · exact (hl.1 (hn ▸ List.mem_map_of_mem (f := Prod.fst) h)).elim

/-- **C69** (vi) The tables that the grammar refers to. -/
theorem C69_tables (n : Nat) :
    (∀ l op, Parser.binOp? n = some (l, op) ↔ (n, l, op) ∈ operators) ∧
      (∀ op, Parser.assignOp? n = some op ↔ (n, op) ∈ [(c!"+=", BinOp.add), (c!"*=", BinOp.mul), (c!"^=", BinOp.xor)]) ∧
      (∀ t, Parser.intTy? n = some t ↔ (n, t) ∈ integers) := by
  refine ⟨fun l op => ?_, fun op => ?_, fun t => ?_⟩
  · rw [← lookup_iff (by decide)]; rfl
  · rw [← lookup_iff (by decide)]; rfl
  · rw [← lookup_iff (by decide)]; rfl

theorem beq_eq (n m : Nat) : n.beq m = (n == m) := by
  cases h : n.beq m
  · exact (beq_eq_false_iff_ne.2 (Nat.ne_of_beq_eq_false h)).symm
  · rw [Nat.eq_of_beq_eq_true h, beq_self_eq_true]

theorem lookup_eq {α : Type} (n : Nat) (l : List (Nat × α)) : Parser.lookup n l = l.lookup n := by
  induction l with
  | nil => rfl
  | cons p l ih =>
    obtain ⟨m, a⟩ := p
    rw [Parser.lookup, List.lookup, ih]
    rw [beq_eq]
    cases n == m <;> rfl

theorem append_eq (l m : List Nat) : Parser.append l m = l ++ m := by
  induction l with
  | nil => rfl
  | cons x l ih => rw [Parser.append, ih]; rfl

theorem inferredTy_eq (fn x : Nat) (l : List (Nat × Nat × Ty)) :
    Parser.inferredTy fn x l = (l.find? fun p => p.1 == fn && p.2.1 == x).map fun p => p.2.2 := by
  induction l with
  | nil => rfl
  | cons p l ih =>
    obtain ⟨f, y, t⟩ := p
    rw [Parser.inferredTy, ih, List.find?]
    rw [beq_eq, beq_eq]
    dsimp only
    cases f == fn && y == x <;> rfl

/-- **C69** (vii) Names. The number of a string without NUL stands for the string. A path whose first segment has been declared with
`use` stands for the declared path followed by the other segments, a single segment otherwise for a name of the same module, and any
other path for itself; the segments are joined by `::`. Names of fields and parameters stand for themselves. The type of a variable
declared without one is the first entry for the function and the variable. -/
theorem C69_names (sc : Scope) (n : Nat) (path : List Nat) :
    (∀ s : String, '\x00' ∉ s.toList → decode (encode s) = s) ∧
      (∀ p, sc.uses.lookup n = some p → Parser.resolve sc (n :: path) = "::".intercalate ((p ++ path).map decode)) ∧
      (sc.uses.lookup n = none → Parser.resolve sc [n] = decode sc.mod ++ "::" ++ decode n) ∧
      (sc.uses.lookup n = none → path ≠ [] → Parser.resolve sc (n :: path) = "::".intercalate ((n :: path).map decode)) ∧
      (∀ ds, Parser.decodeFields ds = ds.map fun d => (decode d.1, d.2)) ∧
      (∀ f x l, Parser.inferredTy f x l = (l.find? fun p => p.1 == f && p.2.1 == x).map fun p => p.2.2) := by
  refine ⟨Proofs.Names.decode_encode, fun p h => ?_, fun h => ?_, fun h hp => ?_, fun ds => ?_, inferredTy_eq⟩
  · unfold Parser.resolve
    dsimp only
    rw [lookup_eq, h]
    dsimp only
    rw [append_eq, Proofs.Names.decode_joinPath]
  · unfold Parser.resolve
    dsimp only
    rw [lookup_eq, h]
    dsimp only
    rw [Proofs.Names.decode_joinPath]
    simp [String.intercalate_cons_cons, String.intercalate_singleton]
  · cases path with
    | nil => exact (hp rfl).elim
    | cons s path =>
      unfold Parser.resolve
      dsimp only
      rw [lookup_eq, h]
      dsimp only
      rw [Proofs.Names.decode_joinPath]
  · induction ds with
    | nil => rfl
    | cons d ds ih => rw [Parser.decodeFields, ih]; rfl

/-- After `use crate::bmw;`. -/
example : Parser.resolve { mod := c!"lyra2re", inferred := [], uses := [(c!"bmw", [c!"bmw"])] } [c!"bmw", c!"sum"] = "bmw::sum" ∧
    Parser.resolve { mod := c!"lyra2", inferred := [], uses := [(c!"bmw", [c!"bmw"])] } [c!"squeeze"] = "lyra2::squeeze" := by
  decide +kernel

/-- The two lines `a..=0x1F /*b*/ <<c` and `// d`. -/
private def lines : List (List Nat) :=
  [[c!"a", c!".", c!".", c!"=", c!"0", c!"x", c!"1", c!"F", c!" ", c!"/", c!"*", c!"b", c!"*", c!"/", c!" ", c!"<", c!"<", c!"c"],
   [c!"/", c!"/", c!" ", c!"d"]]

example : IsTokens (Lexical.text lines) [word c!"a", sym c!"..=", .num 31, sym c!"<<", word c!"c"] :=
  ((Proofs.Lexical.tokens_iff (by unfold Proofs.Lexical.Bounded lines; decide) _).1 rfl).2

private def sc0 : Scope := { mod := c!"m", inferred := [] }

/-- `a - b - c * 2 << 1 ^ -d[i] as u64` -/
private def sample : List Token :=
  [word c!"a", sym c!"-", word c!"b", sym c!"-", word c!"c", sym c!"*", .num 2, sym c!"<<", .num 1, sym c!"^", sym c!"-", word c!"d", sym c!"[",
   word c!"i", sym c!"]", word c!"as", word c!"u64"]

/-- `(((a - b) - (c * 2)) << 1) ^ ((-(d[i])) as u64)` -/
private def tree : Expr :=
  .bin .xor (.bin .shl (.bin .sub (.bin .sub (.var (decode c!"a")) (.var (decode c!"b"))) (.bin .mul (.var (decode c!"c")) (.lit 2))) (.lit 1))
    (.cast (.neg (.index (.var (decode c!"d")) (.var (decode c!"i")))) .u64)

private theorem sample_tree : IsExpr sc0 1 true sample tree := by
  have h : Parser.expr sc0 20 true sample = some (tree, []) := rfl
  obtain ⟨us, hu, he⟩ := Proofs.Grammar.expr_some h
  rw [List.append_nil] at hu
  rwa [← hu] at he

example (e : Expr) : IsExpr sc0 1 true sample e ↔ e = tree := ⟨fun h => (C69_unambiguous _ _).1 _ _ _ h sample_tree, fun h => h ▸ sample_tree⟩

/-- The rules, applied by hand: `a + b` -/
example : IsExpr sc0 1 true [word c!"a", sym c!"+", word c!"b"] (.bin .add (.var (decode c!"a")) (.var (decode c!"b"))) :=
  .weaken (.weaken (.weaken (.weaken (.weaken (.bin (ts := [_]) (us := [_]) rfl
    (.weaken (.weaken (.weaken (.weaken (.weaken (.var (by decide) rfl)))))) (.weaken (.weaken (.weaken (.weaken (.var (by decide) rfl))))))))))

/-- `a - b - c` is `(a - b) - c`, not `a - (b - c)`. -/
example : ∀ e, IsExpr sc0 1 true [word c!"a", sym c!"-", word c!"b", sym c!"-", word c!"c"] e →
    e ≠ .bin .sub (.var (decode c!"a")) (.bin .sub (.var (decode c!"b")) (.var (decode c!"c"))) := by
  intro e h
  have hp : Parser.expr sc0 20 true [word c!"a", sym c!"-", word c!"b", sym c!"-", word c!"c"] =
      some (.bin .sub (.bin .sub (.var (decode c!"a")) (.var (decode c!"b"))) (.var (decode c!"c")), []) := rfl
  obtain ⟨us, hu, he⟩ := Proofs.Grammar.expr_some hp
  rw [List.append_nil] at hu
  rw [← hu] at he
  rw [(C69_unambiguous _ _).1 _ _ _ h he]
  simp

end Props

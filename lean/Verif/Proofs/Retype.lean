import Verif.Source.Grammar

/-! What the rules of the grammar make of a text with other types in the table of inferred types. -/

namespace Proofs.Retype
open Source Source.Grammar Source.Parser

/-- The scope with another table. -/
def to (tbl : List (Nat × Nat × Ty)) (sc : Scope) : Scope := { sc with inferred := tbl }

section
variable {tbl : List (Nat × Nat × Ty)}

mutual
theorem expr_to {sc : Scope} {l : Nat} {st : Bool} {ts : List Token} {e : Source.Expr} : IsExpr sc l st ts e → IsExpr (to tbl sc) l st ts e
  | .weaken h => .weaken (expr_to h)
  | .bin h0 h1 h2 => .bin h0 (expr_to h1) (expr_to h2)
  | .cast h0 h => .cast h0 (expr_to h)
  | .neg h => .neg (expr_to h)
  | .ref h => .ref (expr_to h)
  | .index h1 h2 => .index (expr_to h1) (expr_to h2)
  | .prefix h1 h2 => .prefix (expr_to h1) (expr_to h2)
  | .slice h1 h2 h3 => .slice (expr_to h1) (expr_to h2) (expr_to h3)
  | .field h => .field (expr_to h)
  | .method h1 h2 => .method (expr_to h1) (args_to h2)
  | .num => .num
  | .paren h => .paren (expr_to h)
  | .list h => .list (args_to h)
  | .arrayOf h => .arrayOf (expr_to h)
  | .vec => .vec
  | .vecOf h1 h2 => .vecOf (expr_to h1) (expr_to h2)
  | .call h0 h1 h2 => .call (sc := to tbl sc) h0 h1 (args_to h2)
  | .struct h0 h1 h2 => .struct h0 h1 (inits_to h2)
  | .const h0 h1 => .const (sc := to tbl sc) h0 h1
  | .var h0 h1 => .var h0 h1

theorem args_to {sc : Scope} {n : Nat} {ts : List Token} {es : List Source.Expr} : IsArgs sc n ts es → IsArgs (to tbl sc) n ts es
  | .close => .close
  | .last h => .last (expr_to h)
  | .cons h1 h2 => .cons (expr_to h1) (args_to h2)

theorem inits_to {sc : Scope} {ts : List Token} {ns : List Nat} {es : List Source.Expr} : IsInits sc ts ns es → IsInits (to tbl sc) ts ns es
  | .close => .close
  | .last h => .last (expr_to h)
  | .cons h1 h2 => .cons (expr_to h1) (inits_to h2)
end

end

/-- Where two types differ, the second stands for another one, given by `σ`. -/
def pick (σ : Ty → Ty) (a b : Option Ty) : Option Ty := if a = b then a else b.map σ

theorem pick_self (σ : Ty → Ty) (a : Option Ty) : pick σ a a = a := if_pos rfl

mutual
/-- The first statement, with the types given by `pick`. -/
def mergeStmt (σ : Ty → Ty) : Source.Stmt → Source.Stmt → Source.Stmt
  | .letVar x a e, .letVar _ b _ => .letVar x (pick σ a b) e
  | .ifElse c t e, .ifElse _ t' e' => .ifElse c (mergeBlock σ t t') (mergeBlock σ e e')
  | .forIn x lo hi incl ss, .forIn _ _ _ _ ss' => .forIn x lo hi incl (mergeBlock σ ss ss')
  | .loop ss, .loop ss' => .loop (mergeBlock σ ss ss')
  | s, _ => s

@[inherit_doc mergeStmt]
def mergeBlock (σ : Ty → Ty) : List Source.Stmt → List Source.Stmt → List Source.Stmt
  | s :: ss, s' :: ss' => mergeStmt σ s s' :: mergeBlock σ ss ss'
  | ss, _ => ss
end

@[inherit_doc mergeStmt]
def mergeFn (σ : Ty → Ty) (f f' : Fn) : Fn := { f with body := mergeBlock σ f.body f'.body }

@[inherit_doc mergeStmt]
def mergeFns (σ : Ty → Ty) : List Fn → List Fn → List Fn
  | f :: fs, f' :: fs' => mergeFn σ f f' :: mergeFns σ fs fs'
  | fs, _ => fs

section
variable {σ : Ty → Ty} {t1 t2 t3 : List (Nat × Nat × Ty)}

mutual
theorem stmt_to (h3 : ∀ f x, inferredTy f x t3 = pick σ (inferredTy f x t1) (inferredTy f x t2)) {sc : Scope}
    (hsc : sc.inferred = t1) {ts : List Token} {s : Source.Stmt} :
    IsStmt sc ts s → ∃ s', IsStmt (to t2 sc) ts s' ∧ IsStmt (to t3 sc) ts (mergeStmt σ s s')
  | .letSnd h1 h2 => ⟨_, .letSnd h1 (expr_to h2), .letSnd h1 (expr_to h2)⟩
  | .letTyped h1 h2 h => ⟨_, .letTyped h1 h2 (expr_to h), by rw [mergeStmt, pick_self]; exact .letTyped h1 h2 (expr_to h)⟩
  | .letVar (n := n) h1 h => ⟨_, .letVar h1 (expr_to h), by
      rw [mergeStmt, hsc, show (to t2 sc).inferred = t2 from rfl, show (to t2 sc).fn = sc.fn from rfl, ← h3]
      exact .letVar (sc := to t3 sc) h1 (expr_to h)⟩
  | .ifThen h1 h2 => by
      obtain ⟨ss', a, b⟩ := block_to h3 hsc h2
      exact ⟨_, .ifThen (expr_to h1) a, by rw [mergeStmt]; exact .ifThen (expr_to h1) b⟩
  | .ifElse h1 h2 h3' => by
      obtain ⟨ss', a, b⟩ := block_to h3 hsc h2
      obtain ⟨ss'', a', b'⟩ := block_to h3 hsc h3'
      exact ⟨_, .ifElse (expr_to h1) a a', by rw [mergeStmt]; exact .ifElse (expr_to h1) b b'⟩
  | .forIn h1 h2 h3' h4 => by
      obtain ⟨ss', a, b⟩ := block_to h3 hsc h4
      exact ⟨_, .forIn (expr_to h1) h2 (expr_to h3') a, by rw [mergeStmt]; exact .forIn (expr_to h1) h2 (expr_to h3') b⟩
  | .loop h => by
      obtain ⟨ss', a, b⟩ := block_to h3 hsc h
      exact ⟨_, .loop a, by rw [mergeStmt]; exact .loop b⟩
  | .break => ⟨_, .break, .break⟩
  | .panic => ⟨_, .panic, .panic⟩
  | .assign h0 h1 h2 => ⟨_, .assign h0 (expr_to h1) (expr_to h2), .assign h0 (expr_to h1) (expr_to h2)⟩
  | .assignOp h0 h0' h1 h2 => ⟨_, .assignOp h0 h0' (expr_to h1) (expr_to h2), .assignOp h0 h0' (expr_to h1) (expr_to h2)⟩
  | .mutate h0 h => ⟨_, .mutate h0 (expr_to h), .mutate h0 (expr_to h)⟩

theorem block_to (h3 : ∀ f x, inferredTy f x t3 = pick σ (inferredTy f x t1) (inferredTy f x t2)) {sc : Scope}
    (hsc : sc.inferred = t1) {ts : List Token} {ss : List Source.Stmt} {e : Option Source.Expr} :
    IsBlock sc ts ss e → ∃ ss', IsBlock (to t2 sc) ts ss' e ∧ IsBlock (to t3 sc) ts (mergeBlock σ ss ss') e
  | .close => ⟨_, .close, .close⟩
  | .value h0 h => ⟨_, .value h0 (expr_to h), .value h0 (expr_to h)⟩
  | .empty h => by
      obtain ⟨ss', a, b⟩ := block_to h3 hsc h
      exact ⟨_, .empty a, .empty b⟩
  | .cons h1 h2 => by
      obtain ⟨s', a, b⟩ := stmt_to h3 hsc h1
      obtain ⟨ss', a', b'⟩ := block_to h3 hsc h2
      exact ⟨_, .cons a a', by rw [mergeBlock]; exact .cons b b'⟩
end

theorem items_to (h3 : ∀ f x, inferredTy f x t3 = pick σ (inferredTy f x t1) (inferredTy f x t2)) {sc : Scope}
    (hsc : sc.inferred = t1) {test : Bool} {ts : List Token} {fns : List Fn} (h : IsItems sc test ts fns) :
    ∃ fns', IsItems (to t2 sc) test ts fns' ∧ IsItems (to t3 sc) test ts (mergeFns σ fns fns') := by
  induction h with
  | nil => exact ⟨_, .nil, .nil⟩
  | «attribute» h0 _ ih =>
    obtain ⟨f, a, b⟩ := ih hsc
    exact ⟨_, .«attribute» h0 a, .«attribute» h0 b⟩
  | useAs h0 _ ih =>
    obtain ⟨f, a, b⟩ := ih hsc
    exact ⟨_, .useAs h0 a, .useAs h0 b⟩
  | @use sc _ n path _ _ _ h0 _ ih =>
    obtain ⟨f, a, b⟩ := ih (by split <;> exact hsc)
    refine ⟨f, .use h0 ?_, .use h0 ?_⟩
    · by_cases hn : n = c!"crate"
      · rw [if_pos hn] at a ⊢; exact a
      · rw [if_neg hn] at a ⊢; exact a
    · by_cases hn : n = c!"crate"
      · rw [if_pos hn] at b ⊢; exact b
      · rw [if_neg hn] at b ⊢; exact b
  | const h0 h1 h2 _ ih =>
    obtain ⟨f, a, b⟩ := ih hsc
    exact ⟨_, .const (sc := to t2 _) h0 h1 (expr_to h2) a, .const (sc := to t3 _) h0 h1 (expr_to h2) b⟩
  | struct h0 h1 _ ih =>
    obtain ⟨f, a, b⟩ := ih hsc
    exact ⟨_, .struct (sc := to t2 _) h0 h1 a, .struct (sc := to t3 _) h0 h1 b⟩
  | test h0 h1 h2 _ ih =>
    obtain ⟨f, a, b⟩ := ih hsc
    exact ⟨_, .test h0 h1 h2 a, .test h0 h1 h2 b⟩
  | @fn sc _ n _ _ _ _ _ _ _ _ _ _ h0 h1 h2 h4 _ ih =>
    obtain ⟨f, a, b⟩ := ih hsc
    obtain ⟨ss', a', b'⟩ := block_to (sc := { sc with fn := n }) h3 hsc h4
    exact ⟨_, .fn (sc := to t2 sc) h0 h1 h2 a' a, .fn (sc := to t3 sc) h0 h1 h2 b' b⟩

end

end Proofs.Retype

import Verif.Source.Grammar

/-!
# What the parser yields follows the grammar

For every sequence of tokens: if a parser of `Source.Parser` succeeds, the tokens that it has consumed stand for its result by the rules
of `Source.Grammar`.
-/

namespace Proofs.Grammar
open Source Source.Parser Source.Grammar

/-! ## Elementary parsers -/

theorem bind_some {α β : Type} {p : P α} {f : α → P β} {ts rest : List Token} {b : β} (h : (p >>= f) ts = some (b, rest)) :
    ∃ a us, p ts = some (a, us) ∧ f a us = some (b, rest) := by
  change (match p ts with | some (a, ts) => f a ts | none => none) = some (b, rest) at h
  split at h
  · exact ⟨_, _, ‹_›, h⟩
  · cases h

theorem pure_some {α : Type} {a b : α} {ts rest : List Token} (h : (pure a : P α) ts = some (b, rest)) : b = a ∧ rest = ts := by
  cases h
  exact ⟨rfl, rfl⟩

theorem fail_some {α : Type} {ts : List Token} {x : α × List Token} (h : (fail : P α) ts = some x) : False := by cases h

theorem beq_true {m n : Nat} (h : Nat.beq m n = true) : m = n := Nat.eq_of_beq_eq_true h

/-- The next token is not the given one. -/
def NotNext (t : Token) (ts : List Token) : Prop := ∀ us, ts ≠ t :: us

theorem accept_some {s : Nat} {b : Bool} {ts rest : List Token} (h : accept s ts = some (b, rest)) :
    (b = true ∧ ts = .sym s :: rest) ∨ (b = false ∧ rest = ts ∧ NotNext (.sym s) ts) := by
  unfold accept at h
  split at h
  · rename_i t rest'
    cases hb : Nat.beq s t <;> rw [hb] at h <;> cases h
    · exact .inr ⟨rfl, rfl, fun us hu => by cases hu; rw [Nat.beq_refl] at hb; cases hb⟩
    · exact .inl ⟨rfl, by rw [beq_true hb]⟩
  · rename_i hn
    cases h
    exact .inr ⟨rfl, rfl, fun us hu => hn _ _ hu⟩

theorem acceptWord_some {s : Nat} {b : Bool} {ts rest : List Token} (h : acceptWord s ts = some (b, rest)) :
    (b = true ∧ ts = .word s :: rest) ∨ (b = false ∧ rest = ts ∧ NotNext (.word s) ts) := by
  unfold acceptWord at h
  split at h
  · rename_i t rest'
    cases hb : Nat.beq s t <;> rw [hb] at h <;> cases h
    · exact .inr ⟨rfl, rfl, fun us hu => by cases hu; rw [Nat.beq_refl] at hb; cases hb⟩
    · exact .inl ⟨rfl, by rw [beq_true hb]⟩
  · rename_i hn
    cases h
    exact .inr ⟨rfl, rfl, fun us hu => hn _ _ hu⟩

/-- Two continuations, by whether the symbol is next. -/
theorem ifAccept {α : Type} {s : Nat} {p q : P α} {ts rest : List Token} {a : α}
    (h : (accept s >>= fun b => if b = true then p else q) ts = some (a, rest)) :
    (∃ us, ts = .sym s :: us ∧ p us = some (a, rest)) ∨ (NotNext (.sym s) ts ∧ q ts = some (a, rest)) := by
  replace h := bind_some h
  obtain ⟨b, us, h1, h2⟩ := h
  replace h1 := accept_some h1
  rcases h1 with ⟨rfl, rfl⟩ | ⟨rfl, rfl, hn⟩
  · exact .inl ⟨_, rfl, h2⟩
  · exact .inr ⟨hn, h2⟩

theorem ifAcceptWord {α : Type} {s : Nat} {p q : P α} {ts rest : List Token} {a : α}
    (h : (acceptWord s >>= fun b => if b = true then p else q) ts = some (a, rest)) :
    (∃ us, ts = .word s :: us ∧ p us = some (a, rest)) ∨ (NotNext (.word s) ts ∧ q ts = some (a, rest)) := by
  replace h := bind_some h
  obtain ⟨b, us, h1, h2⟩ := h
  replace h1 := acceptWord_some h1
  rcases h1 with ⟨rfl, rfl⟩ | ⟨rfl, rfl, hn⟩
  · exact .inl ⟨_, rfl, h2⟩
  · exact .inr ⟨hn, h2⟩

theorem expect_some {s : Nat} {u : Unit} {ts rest : List Token} (h : expect s ts = some (u, rest)) : ts = .sym s :: rest := by
  unfold expect at h
  split at h
  · rename_i t rest'
    cases hb : Nat.beq s t <;> rw [hb] at h <;> cases h
    rw [beq_true hb]
  · cases h

/-- After the symbol. -/
theorem thenExpect {α : Type} {s : Nat} {p : Unit → P α} {ts rest : List Token} {a : α} (h : (expect s >>= p) ts = some (a, rest)) :
    ∃ us, ts = .sym s :: us ∧ p () us = some (a, rest) := by
  replace h := bind_some h
  obtain ⟨_, us, h1, h2⟩ := h
  exact ⟨us, expect_some h1, h2⟩

/-- After the closing symbol. -/
theorem expectPure {α : Type} {s : Nat} {b : α} {ts rest : List Token} {a : α} (h : (expect s >>= fun _ => pure b) ts = some (a, rest)) :
    ts = .sym s :: rest ∧ a = b := by
  replace h := thenExpect h
  obtain ⟨us, rfl, h⟩ := h
  replace h := pure_some h
  obtain ⟨rfl, rfl⟩ := h
  exact ⟨rfl, rfl⟩

theorem ident_some {n : Nat} {ts rest : List Token} (h : ident ts = some (n, rest)) : ts = .word n :: rest := by
  unfold ident at h
  split at h <;> cases h
  rfl

theorem thenIdent {α : Type} {p : Nat → P α} {ts rest : List Token} {a : α} (h : (ident >>= p) ts = some (a, rest)) :
    ∃ n us, ts = .word n :: us ∧ p n us = some (a, rest) := by
  replace h := bind_some h
  obtain ⟨n, us, h1, h2⟩ := h
  exact ⟨n, us, ident_some h1, h2⟩

theorem numeral_some {n : Nat} {ts rest : List Token} (h : numeral ts = some (n, rest)) : ts = .num n :: rest := by
  unfold numeral at h
  split at h <;> cases h
  rfl

theorem thenNumeral {α : Type} {p : Nat → P α} {ts rest : List Token} {a : α} (h : (numeral >>= p) ts = some (a, rest)) :
    ∃ n us, ts = .num n :: us ∧ p n us = some (a, rest) := by
  replace h := bind_some h
  obtain ⟨n, us, h1, h2⟩ := h
  exact ⟨n, us, numeral_some h1, h2⟩

theorem thenEnsure {α : Type} {b : Bool} {p : Unit → P α} {ts rest : List Token} {a : α} (h : (ensure b >>= p) ts = some (a, rest)) :
    b = true ∧ p () ts = some (a, rest) := by
  replace h := bind_some h
  obtain ⟨_, us, h1, h2⟩ := h
  cases b
  · cases h1
  · cases h1
    exact ⟨rfl, h2⟩

theorem thenName {α : Type} {p : Nat → P α} {ts rest : List Token} {a : α}
    (h : (skip (acceptWord c!"mut") >>= fun _ => ident >>= p) ts = some (a, rest)) :
    ∃ n ms us, IsName ms n ∧ ts = ms ++ us ∧ p n us = some (a, rest) := by
  replace h := bind_some h
  obtain ⟨_, us, h1, h2⟩ := h
  replace h2 := thenIdent h2
  obtain ⟨n, us, rfl, h2⟩ := h2
  unfold skip at h1
  replace h1 := bind_some h1
  obtain ⟨b, vs, h1, h3⟩ := h1
  replace h3 := pure_some h3
  obtain ⟨_, rfl⟩ := h3
  replace h1 := acceptWord_some h1
  rcases h1 with ⟨_, rfl⟩ | ⟨_, rfl, hn⟩
  · exact ⟨n, _, _, .mutable, rfl, h2⟩
  · exact ⟨n, _, _, .plain fun e => hn us (by rw [e]), rfl, h2⟩

theorem thenPub {α : Type} {p : Bool → P α} {ts rest : List Token} {a : α}
    (h : (acceptWord c!"pub" >>= p) ts = some (a, rest)) : ∃ b ms us, IsPub ms b ∧ ts = ms ++ us ∧ p b us = some (a, rest) := by
  replace h := bind_some h
  obtain ⟨b, us, h1, h2⟩ := h
  replace h1 := acceptWord_some h1
  rcases h1 with ⟨rfl, rfl⟩ | ⟨rfl, rfl, _⟩
  · exact ⟨_, _, _, .yes, rfl, h2⟩
  · exact ⟨_, _, _, .no, rfl, h2⟩

theorem thenIntTy {α : Type} {p : IntTy → P α} {ts rest : List Token} {a : α} (h : (intTy >>= p) ts = some (a, rest)) :
    ∃ n t us, intTy? n = some t ∧ ts = .word n :: us ∧ p t us = some (a, rest) := by
  replace h := bind_some h
  obtain ⟨t, us, h1, h2⟩ := h
  unfold intTy at h1
  replace h1 := thenIdent h1
  obtain ⟨n, vs, rfl, h1⟩ := h1
  cases hi : intTy? n with
  | some t' =>
    rw [hi] at h1
    replace h1 := pure_some (ts := vs) h1
    obtain ⟨rfl, rfl⟩ := h1
    exact ⟨n, _, _, hi, rfl, h2⟩
  | none =>
    rw [hi] at h1
    cases h1

/-! ## Types and paths -/

theorem bareTy_some {t : Ty} {ts rest : List Token}
    (h : (do
      if (← accept c!"[") then
        let t ← intTy
        if (← accept c!";") then
          let n ← numeral
          expect c!"]"
          pure (.array t n)
        else
          expect c!"]"
          pure (.vec t)
      else
        let s ← ident
        if Nat.beq s c!"Vec" then
          expect c!"<"
          let t ← intTy
          expect c!">"
          pure (.vec t)
        else match intTy? s with
          | some t => pure (.int t)
          | none => pure (.struct (decode s)) : P Ty) ts = some (t, rest)) :
    ∃ us, ts = us ++ rest ∧ IsBareTy us t := by
  replace h := ifAccept h
  rcases h with ⟨us, rfl, h⟩ | ⟨_, h⟩
  · replace h := thenIntTy h
    obtain ⟨n, t', us, hn, rfl, h⟩ := h
    replace h := ifAccept h
    rcases h with ⟨us, rfl, h⟩ | ⟨_, h⟩
    · replace h := thenNumeral h
      obtain ⟨k, us, rfl, h⟩ := h
      replace h := expectPure h
      obtain ⟨rfl, rfl⟩ := h
      exact ⟨_, rfl, .array hn⟩
    · replace h := expectPure h
      obtain ⟨rfl, rfl⟩ := h
      exact ⟨_, rfl, .slice hn⟩
  · replace h := thenIdent h
    obtain ⟨n, us, rfl, h⟩ := h
    split at h
    · rename_i hb
      replace h := thenExpect h
      obtain ⟨us, rfl, h⟩ := h
      replace h := thenIntTy h
      obtain ⟨k, t', us, hn, rfl, h⟩ := h
      replace h := expectPure h
      obtain ⟨rfl, rfl⟩ := h
      rw [beq_true hb]
      exact ⟨_, rfl, .vec hn⟩
    · rename_i hb
      cases hi : intTy? n with
      | some t' =>
        rw [hi] at h
        replace h := pure_some (ts := us) h
        obtain ⟨rfl, rfl⟩ := h
        exact ⟨_, rfl, .int hi⟩
      | none =>
        rw [hi] at h
        replace h := pure_some (ts := us) h
        obtain ⟨rfl, rfl⟩ := h
        exact ⟨_, rfl, .struct hi fun e => hb (by rw [e])⟩

theorem ty_some {t : Ty} {ts rest : List Token} (h : ty ts = some (t, rest)) : ∃ us, ts = us ++ rest ∧ IsTy us t := by
  unfold ty at h
  replace h := bind_some h
  obtain ⟨_, us, h1, h2⟩ := h
  unfold skip at h1
  replace h1 := bind_some h1
  obtain ⟨b, vs, h1, h3⟩ := h1
  replace h3 := pure_some h3
  obtain ⟨_, rfl⟩ := h3
  replace h2 := bareTy_some h2
  obtain ⟨ws, hw, ht⟩ := h2
  replace h1 := accept_some h1
  rcases h1 with ⟨_, rfl⟩ | ⟨_, rfl, _⟩
  · exact ⟨.sym c!"&" :: ws, by rw [hw]; rfl, .ref ht⟩
  · exact ⟨ws, hw, .bare ht⟩

theorem thenTy {α : Type} {p : Ty → P α} {ts rest : List Token} {a : α} (h : (ty >>= p) ts = some (a, rest)) :
    ∃ t us vs, IsTy us t ∧ ts = us ++ vs ∧ p t vs = some (a, rest) := by
  replace h := bind_some h
  obtain ⟨t, vs, h1, h2⟩ := h
  replace h1 := ty_some h1
  obtain ⟨us, hu, ht⟩ := h1
  exact ⟨t, us, vs, ht, hu, h2⟩

theorem pathRest_some {fuel : Nat} : ∀ {path : List Nat} {ts rest : List Token}, pathRest fuel ts = some (path, rest) →
    ∃ us, ts = us ++ rest ∧ IsPath us path := by
  induction fuel with
  | zero => intro _ _ _ h; exact (fail_some h).elim
  | succ fuel ih =>
    intro path ts rest h
    unfold pathRest at h
    replace h := ifAccept h
    rcases h with ⟨us, rfl, h⟩ | ⟨_, h⟩
    · replace h := ifAccept h
      rcases h with ⟨us, rfl, h⟩ | ⟨_, h⟩
      · replace h := thenIdent h
        obtain ⟨n, us, rfl, h⟩ := h
        replace h := thenExpect h
        obtain ⟨us, rfl, h⟩ := h
        replace h := bind_some h
        obtain ⟨path, us, h1, h⟩ := h
        replace h := pure_some h
        obtain ⟨rfl, rfl⟩ := h
        replace h1 := ih h1
        obtain ⟨vs, rfl, hv⟩ := h1
        exact ⟨_, rfl, .type hv⟩
      · replace h := thenIdent h
        obtain ⟨n, us, rfl, h⟩ := h
        replace h := bind_some h
        obtain ⟨path, us, h1, h⟩ := h
        replace h := pure_some h
        obtain ⟨rfl, rfl⟩ := h
        replace h1 := ih h1
        obtain ⟨vs, rfl, hv⟩ := h1
        exact ⟨_, rfl, .name hv⟩
    · replace h := pure_some h
      obtain ⟨rfl, rfl⟩ := h
      exact ⟨[], rfl, .nil⟩

/-! ## Expressions -/

theorem weaken {sc : Scope} {l m : Nat} {st : Bool} {ts : List Token} {e : Expr} (h : IsExpr sc m st ts e) (hl : l ≤ m) :
    IsExpr sc l st ts e := by
  induction m with
  | zero =>
    have : l = 0 := by omega
    exact this ▸ h
  | succ m ih =>
    rcases Nat.lt_or_ge m l with hm | hm
    · have : l = m + 1 := by omega
      exact this ▸ h
    · exact ih (.weaken h) hm

/-- The next token is not a binary operator of strength at least `l`. -/
def Stop (l : Nat) (ts : List Token) : Prop := ∀ n us k op, ts = .sym n :: us → binOp? n = some (k, op) → k < l

theorem cond_some {α : Type} {b : Bool} {x y : Option α} {a : α} (h : (bif b then x else y) = some a) : x = some a ∨ y = some a := by
  cases b
  · exact .inr h
  · exact .inl h

theorem binOp?_le {n k : Nat} {op : BinOp} (h : binOp? n = some (k, op)) : 1 ≤ k ∧ k ≤ 7 := by
  unfold binOp? at h
  repeat
    replace h := cond_some h
    rcases h with h | h
    · cases h; decide
  cases h

theorem stop_nine {ts : List Token} : Stop 9 ts := fun _ _ _ _ _ h => by have := binOp?_le h; omega

theorem acceptOp_some {l : Nat} {r : Option (Nat × BinOp)} {ts rest : List Token} (h : acceptOp l ts = some (r, rest)) :
    (r = none ∧ rest = ts ∧ Stop l ts) ∨ ∃ n k op, r = some (k, op) ∧ binOp? n = some (k, op) ∧ l ≤ k ∧ ts = .sym n :: rest := by
  unfold acceptOp at h
  split at h
  · rename_i n us
    split at h
    · rename_i k op hk
      cases hb : Nat.ble l k <;> rw [hb] at h <;> cases h
      · refine .inl ⟨rfl, rfl, fun n' us' k' op' hu hk' => ?_⟩
        cases hu
        rw [hk] at hk'
        cases hk'
        rcases Nat.lt_or_ge k l with h | h
        · exact h
        · rw [Nat.ble_eq.mpr h] at hb; cases hb
      · exact .inr ⟨n, k, op, rfl, hk, Nat.le_of_ble_eq_true hb, rfl⟩
    · rename_i hk
      cases h
      refine .inl ⟨rfl, rfl, fun n' us' k' op' hu hk' => ?_⟩
      cases hu
      rw [hk] at hk'
      cases hk'
  · rename_i hn
    cases h
    exact .inl ⟨rfl, rfl, fun n' us' k' op' hu hk' => (hn _ _ hu).elim⟩

theorem casts_some {sc : Scope} {st : Bool} {fuel : Nat} : ∀ {e e' : Expr} {us ts rest : List Token}, IsExpr sc 8 st us e →
    casts fuel e ts = some (e', rest) → ∃ vs, ts = vs ++ rest ∧ IsExpr sc 8 st (us ++ vs) e' := by
  induction fuel with
  | zero => intro _ _ _ _ _ _ h; exact (fail_some h).elim
  | succ fuel ih =>
    intro e e' us ts rest he h
    unfold casts at h
    replace h := ifAcceptWord h
    rcases h with ⟨vs, rfl, h⟩ | ⟨_, h⟩
    · replace h := thenIntTy h
      obtain ⟨n, t, vs, hn, rfl, h⟩ := h
      replace h := ih (.cast hn he) h
      obtain ⟨ws, rfl, hw⟩ := h
      exact ⟨.word c!"as" :: .word n :: ws, rfl, by simpa using hw⟩
    · replace h := pure_some h
      obtain ⟨rfl, rfl⟩ := h
      exact ⟨[], rfl, by simpa using he⟩

theorem sameNames_inits {inits : List (Nat × Expr)} : ∀ {decl : List (Nat × Ty)}, sameNames inits decl = true →
    inits.map Prod.fst = decl.map Prod.fst := by
  induction inits with
  | nil => intro decl h; cases decl <;> simp [sameNames] at h ⊢
  | cons x inits ih =>
    intro decl h
    cases decl with
    | nil => simp [sameNames] at h
    | cons d decl =>
      simp only [sameNames, Bool.and_eq_true] at h
      simp only [List.map_cons]
      rw [beq_true h.1, ih h.2]

theorem values_eq (inits : List (Nat × Expr)) : values inits = inits.map Prod.snd := by
  induction inits with
  | nil => rfl
  | cons x inits ih => simp only [values, List.map_cons, ih]

/-- What the parsers for expressions yield follows the grammar. -/
structure Sound (sc : Scope) (r : Exprs) : Prop where
  expr {l : Nat} {st : Bool} {e : Expr} {ts rest : List Token} : l ≤ 8 → r.expr l st ts = some (e, rest) →
    ∃ us, ts = us ++ rest ∧ IsExpr sc l st us e ∧ Stop l rest
  ops {l m : Nat} {st : Bool} {e e' : Expr} {us ts rest : List Token} : l ≤ m → IsExpr sc m st us e → Stop (m + 1) ts →
    r.ops l st e ts = some (e', rest) → ∃ vs, ts = vs ++ rest ∧ IsExpr sc l st (us ++ vs) e' ∧ Stop l rest
  unary {st : Bool} {e : Expr} {ts rest : List Token} : r.unary st ts = some (e, rest) → ∃ us, ts = us ++ rest ∧ IsExpr sc 9 st us e
  atom {st : Bool} {e : Expr} {ts rest : List Token} : r.atom st ts = some (e, rest) → ∃ us, ts = us ++ rest ∧ IsExpr sc 11 st us e
  suffix {st : Bool} {e e' : Expr} {us ts rest : List Token} : IsExpr sc 10 st us e → r.suffix e ts = some (e', rest) →
    ∃ vs, ts = vs ++ rest ∧ IsExpr sc 10 st (us ++ vs) e'
  args {n : Nat} {es : List Expr} {ts rest : List Token} : r.args n ts = some (es, rest) → ∃ us, ts = us ++ rest ∧ IsArgs sc n us es
  fieldInits {inits : List (Nat × Expr)} {ts rest : List Token} : r.fieldInits ts = some (inits, rest) →
    ∃ us, ts = us ++ rest ∧ IsInits sc us (inits.map Prod.fst) (inits.map Prod.snd)

namespace Sound

variable {sc : Scope} {r : Exprs}

/-- After an expression in brackets. -/
theorem thenExpr (hr : Sound sc r) {α : Type} {p : Expr → P α} {ts rest : List Token} {a : α}
    (h : (r.expr 1 true >>= p) ts = some (a, rest)) : ∃ e us vs, IsExpr sc 1 true us e ∧ ts = us ++ vs ∧ p e vs = some (a, rest) := by
  replace h := bind_some h
  obtain ⟨e, vs, h1, h2⟩ := h
  replace h1 := hr.expr (by omega) h1
  obtain ⟨us, hu, he, _⟩ := h1
  exact ⟨e, us, vs, he, hu, h2⟩

theorem thenArgs (hr : Sound sc r) {α : Type} {n : Nat} {p : List Expr → P α} {ts rest : List Token} {a : α}
    (h : (r.args n >>= p) ts = some (a, rest)) : ∃ es us vs, IsArgs sc n us es ∧ ts = us ++ vs ∧ p es vs = some (a, rest) := by
  replace h := bind_some h
  obtain ⟨es, vs, h1, h2⟩ := h
  replace h1 := hr.args h1
  obtain ⟨us, hu, he⟩ := h1
  exact ⟨es, us, vs, he, hu, h2⟩

theorem atom_step (hr : Sound sc r) {fuel : Nat} {st : Bool} {e : Expr} {ts rest : List Token} (h : (r.step sc fuel).atom st ts = some (e, rest)) :
    ∃ us, ts = us ++ rest ∧ IsExpr sc 11 st us e := by
  cases ts with
  | nil => cases h
  | cons t ts =>
    cases t with
    | str => cases h
    | bad => cases h
    | num n => cases h; exact ⟨_, rfl, .num⟩
    | sym s =>
      change (bif Nat.beq s c!"(" then _ else _ : P Expr) _ = _ at h
      cases hs : Nat.beq s c!"(" <;> rw [hs] at h
      · simp only [cond_false] at h
        cases hs : Nat.beq s c!"[" <;> rw [hs] at h
        · cases h
        · rw [beq_true hs]
          simp only [cond_true] at h
          replace h := ifAccept h
          rcases h with ⟨us, rfl, h⟩ | ⟨_, h⟩
          · replace h := pure_some h
            obtain ⟨rfl, rfl⟩ := h
            exact ⟨[_, _], rfl, .list .close⟩
          · replace h := hr.thenExpr h
            obtain ⟨x, us, vs, hx, rfl, h⟩ := h
            replace h := ifAccept h
            rcases h with ⟨us, rfl, h⟩ | ⟨_, h⟩
            · replace h := thenNumeral h
              obtain ⟨n, us, rfl, h⟩ := h
              replace h := expectPure h
              obtain ⟨rfl, rfl⟩ := h
              exact ⟨_, by simp, .arrayOf hx⟩
            · replace h := ifAccept h
              rcases h with ⟨us, rfl, h⟩ | ⟨_, h⟩
              · replace h := hr.thenArgs h
                obtain ⟨es, vs, ws, he, rfl, h⟩ := h
                replace h := pure_some h
                obtain ⟨rfl, rfl⟩ := h
                exact ⟨_, by simp, .list (.cons hx he)⟩
              · replace h := expectPure h
                obtain ⟨rfl, rfl⟩ := h
                exact ⟨_, by simp, .list (.last hx)⟩
      · rw [beq_true hs]
        simp only [cond_true] at h
        replace h := hr.thenExpr h
        obtain ⟨x, us, vs, hx, rfl, h⟩ := h
        replace h := expectPure h
        obtain ⟨rfl, rfl⟩ := h
        exact ⟨_, by simp, .paren hx⟩
    | word s =>
      change (bif Nat.beq s c!"vec" then _ else _ : P Expr) _ = _ at h
      cases hs : Nat.beq s c!"vec" <;> rw [hs] at h
      · have hs : s ≠ c!"vec" := fun e => by rw [e, Nat.beq_refl] at hs; cases hs
        simp only [cond_false] at h
        replace h := bind_some h
        obtain ⟨path, us, hp, h⟩ := h
        replace hp := pathRest_some hp
        obtain ⟨vs, rfl, hp⟩ := hp
        replace h := ifAccept h
        rcases h with ⟨us, rfl, h⟩ | ⟨_, h⟩
        · replace h := hr.thenArgs h
          obtain ⟨es, us, vs, he, rfl, h⟩ := h
          replace h := pure_some h
          obtain ⟨rfl, rfl⟩ := h
          exact ⟨_, by simp, .call hs hp he⟩
        · cases path with
          | cons _ _ => exact (fail_some h).elim
          | nil =>
            cases hp
            replace h := bind_some h
            obtain ⟨b, ws, h1, h⟩ := h
            have : ws = us := by
              unfold isSym at h1
              split at h1 <;> cases h1 <;> rfl
            subst this
            split at h
            · rename_i hst
              rw [Bool.and_eq_true] at hst
              obtain ⟨rfl, rfl⟩ := hst
              cases hd : lookup s sc.structs with
              | none =>
                rw [hd] at h
                cases h
              | some decl =>
                rw [hd] at h
                replace h := thenExpect h
                obtain ⟨us, rfl, h⟩ := h
                replace h := bind_some h
                obtain ⟨inits, vs, hi, h⟩ := h
                replace hi := hr.fieldInits hi
                obtain ⟨us, rfl, hi⟩ := hi
                replace h := thenEnsure h
                obtain ⟨hn, h⟩ := h
                replace h := pure_some h
                obtain ⟨rfl, rfl⟩ := h
                rw [sameNames_inits hn] at hi
                rw [values_eq]
                exact ⟨_, by simp, .struct hs hd hi⟩
            · split at h
              · replace h := pure_some h
                obtain ⟨rfl, rfl⟩ := h
                exact ⟨_, by simp, .const hs ‹_›⟩
              · replace h := pure_some h
                obtain ⟨rfl, rfl⟩ := h
                exact ⟨_, by simp, .var hs (Bool.eq_false_iff.mpr ‹_›)⟩
      · rw [beq_true hs]
        simp only [cond_true] at h
        replace h := thenExpect h
        obtain ⟨us, rfl, h⟩ := h
        replace h := thenExpect h
        obtain ⟨us, rfl, h⟩ := h
        replace h := ifAccept h
        rcases h with ⟨us, rfl, h⟩ | ⟨_, h⟩
        · replace h := pure_some h
          obtain ⟨rfl, rfl⟩ := h
          exact ⟨_, rfl, .vec⟩
        · replace h := hr.thenExpr h
          obtain ⟨x, us, vs, hx, rfl, h⟩ := h
          replace h := thenExpect h
          obtain ⟨us, rfl, h⟩ := h
          replace h := hr.thenExpr h
          obtain ⟨y, us, vs, hy, rfl, h⟩ := h
          replace h := expectPure h
          obtain ⟨rfl, rfl⟩ := h
          exact ⟨_, by simp, .vecOf hx hy⟩

theorem suffix_step (hr : Sound sc r) {fuel : Nat} {st : Bool} {e e' : Expr} {us ts rest : List Token} (he : IsExpr sc 10 st us e)
    (h : (r.step sc fuel).suffix e ts = some (e', rest)) : ∃ vs, ts = vs ++ rest ∧ IsExpr sc 10 st (us ++ vs) e' := by
  replace h := ifAccept h
  rcases h with ⟨vs, rfl, h⟩ | ⟨_, h⟩
  · replace h := ifAccept h
    rcases h with ⟨vs, rfl, h⟩ | ⟨_, h⟩
    · replace h := hr.thenExpr h
      obtain ⟨x, vs, ws, hx, rfl, h⟩ := h
      replace h := thenExpect h
      obtain ⟨ws, rfl, h⟩ := h
      replace h := hr.suffix (.prefix he hx) h
      obtain ⟨xs, rfl, h⟩ := h
      exact ⟨.sym c!"[" :: .sym c!".." :: (vs ++ .sym c!"]" :: xs), by simp, by simpa using h⟩
    · replace h := hr.thenExpr h
      obtain ⟨x, vs, ws, hx, rfl, h⟩ := h
      replace h := ifAccept h
      rcases h with ⟨ws, rfl, h⟩ | ⟨_, h⟩
      · replace h := hr.thenExpr h
        obtain ⟨y, ws, xs, hy, rfl, h⟩ := h
        replace h := thenExpect h
        obtain ⟨xs, rfl, h⟩ := h
        replace h := hr.suffix (.slice he hx hy) h
        obtain ⟨xs, rfl, h⟩ := h
        exact ⟨.sym c!"[" :: (vs ++ .sym c!".." :: (ws ++ .sym c!"]" :: xs)), by simp, by simpa using h⟩
      · replace h := thenExpect h
        obtain ⟨xs, rfl, h⟩ := h
        replace h := hr.suffix (.index he hx) h
        obtain ⟨xs, rfl, h⟩ := h
        exact ⟨.sym c!"[" :: (vs ++ .sym c!"]" :: xs), by simp, by simpa using h⟩
  · replace h := ifAccept h
    rcases h with ⟨vs, rfl, h⟩ | ⟨_, h⟩
    · replace h := thenIdent h
      obtain ⟨n, vs, rfl, h⟩ := h
      replace h := ifAccept h
      rcases h with ⟨vs, rfl, h⟩ | ⟨_, h⟩
      · replace h := hr.thenArgs h
        obtain ⟨as, vs, ws, has, rfl, h⟩ := h
        replace h := hr.suffix (.method he has) h
        obtain ⟨xs, rfl, h⟩ := h
        exact ⟨.sym c!"." :: .word n :: .sym c!"(" :: (vs ++ xs), by simp, by simpa using h⟩
      · replace h := hr.suffix (.field he) h
        obtain ⟨xs, rfl, h⟩ := h
        exact ⟨.sym c!"." :: .word n :: xs, by simp, by simpa using h⟩
    · replace h := pure_some h
      obtain ⟨rfl, rfl⟩ := h
      exact ⟨[], rfl, by simpa using he⟩

theorem step (hr : Sound sc r) (fuel : Nat) : Sound sc (r.step sc fuel) where
  expr {l st e ts rest} hl h := by
    replace h := bind_some h
    obtain ⟨x, us, h1, h⟩ := h
    replace h1 := hr.unary h1
    obtain ⟨ts', rfl, hx⟩ := h1
    replace h := bind_some h
    obtain ⟨y, vs, h2, h⟩ := h
    replace h2 := casts_some (.weaken hx) h2
    obtain ⟨us', rfl, hy⟩ := h2
    replace h := hr.ops hl hy stop_nine h
    obtain ⟨ws, rfl, hw, hs⟩ := h
    exact ⟨ts' ++ us' ++ ws, by simp, hw, hs⟩
  ops {l m st e e' us ts rest} hl he hs h := by
    replace h := bind_some h
    obtain ⟨o, vs, h1, h⟩ := h
    replace h1 := acceptOp_some h1
    rcases h1 with ⟨rfl, rfl, hs'⟩ | ⟨n, k, op, rfl, hk, hlk, rfl⟩
    · replace h := pure_some h
      obtain ⟨rfl, rfl⟩ := h
      exact ⟨[], rfl, by simpa using weaken he hl, hs'⟩
    · have hkm : k < m + 1 := hs _ _ _ _ rfl hk
      replace h := bind_some h
      obtain ⟨x, ws, h2, h⟩ := h
      have := binOp?_le hk
      replace h2 := hr.expr (by omega) h2
      obtain ⟨ws', rfl, hx, hs'⟩ := h2
      replace h := hr.ops hlk (.bin hk (weaken he (by omega)) hx) hs' h
      obtain ⟨xs, rfl, hxs, hs''⟩ := h
      exact ⟨.sym n :: (ws' ++ xs), by simp, by simpa using hxs, hs''⟩
  unary {st e ts rest} h := by
    replace h := ifAccept h
    rcases h with ⟨vs, rfl, h⟩ | ⟨_, h⟩
    · replace h := bind_some h
      obtain ⟨x, ws, h1, h⟩ := h
      replace h := pure_some h
      obtain ⟨rfl, rfl⟩ := h
      replace h1 := hr.unary h1
      obtain ⟨us, rfl, hx⟩ := h1
      exact ⟨_, by simp, .neg hx⟩
    · replace h := ifAccept h
      rcases h with ⟨vs, rfl, h⟩ | ⟨_, h⟩
      · replace h := hr.unary h
        obtain ⟨us, rfl, hx⟩ := h
        exact ⟨_, by simp, .ref hx⟩
      · replace h := bind_some h
        obtain ⟨x, ws, h1, h⟩ := h
        replace h1 := hr.atom h1
        obtain ⟨us, rfl, hx⟩ := h1
        replace h := hr.suffix (.weaken hx) h
        obtain ⟨vs, rfl, hv⟩ := h
        exact ⟨us ++ vs, by simp, .weaken hv⟩
  atom h := hr.atom_step h
  suffix he h := hr.suffix_step he h
  args {n es ts rest} h := by
    replace h := ifAccept h
    rcases h with ⟨vs, rfl, h⟩ | ⟨_, h⟩
    · replace h := pure_some h
      obtain ⟨rfl, rfl⟩ := h
      exact ⟨[_], rfl, .close⟩
    · replace h := hr.thenExpr h
      obtain ⟨x, us, vs, hx, rfl, h⟩ := h
      replace h := ifAccept h
      rcases h with ⟨vs, rfl, h⟩ | ⟨_, h⟩
      · replace h := hr.thenArgs h
        obtain ⟨es', vs, ws, he, rfl, h⟩ := h
        replace h := pure_some h
        obtain ⟨rfl, rfl⟩ := h
        exact ⟨_, by simp, .cons hx he⟩
      · replace h := expectPure h
        obtain ⟨rfl, rfl⟩ := h
        exact ⟨_, by simp, .last hx⟩
  fieldInits {inits ts rest} h := by
    replace h := ifAccept h
    rcases h with ⟨vs, rfl, h⟩ | ⟨_, h⟩
    · replace h := pure_some h
      obtain ⟨rfl, rfl⟩ := h
      exact ⟨[_], rfl, .close⟩
    · replace h := thenIdent h
      obtain ⟨n, us, rfl, h⟩ := h
      replace h := thenExpect h
      obtain ⟨us, rfl, h⟩ := h
      replace h := hr.thenExpr h
      obtain ⟨x, us, vs, hx, rfl, h⟩ := h
      replace h := ifAccept h
      rcases h with ⟨vs, rfl, h⟩ | ⟨_, h⟩
      · replace h := bind_some h
        obtain ⟨fs, ws, h1, h⟩ := h
        replace h := pure_some h
        obtain ⟨rfl, rfl⟩ := h
        replace h1 := hr.fieldInits h1
        obtain ⟨vs, rfl, hv⟩ := h1
        exact ⟨_, by simp, .cons hx hv⟩
      · replace h := expectPure h
        obtain ⟨rfl, rfl⟩ := h
        exact ⟨_, by simp, .last hx⟩

end Sound

theorem exprs_sound (sc : Scope) (fuel : Nat) : Sound sc (exprs sc fuel) := by
  induction fuel with
  | zero =>
    constructor <;> intros <;> rename_i h <;> cases h
  | succ fuel ih => exact ih.step fuel

theorem expr_some {sc : Scope} {depth : Nat} {st : Bool} {e : Expr} {ts rest : List Token} (h : expr sc depth st ts = some (e, rest)) :
    ∃ us, ts = us ++ rest ∧ IsExpr sc 1 st us e := by
  replace h := (exprs_sound sc depth).expr (by omega) h
  obtain ⟨us, hu, he, _⟩ := h
  exact ⟨us, hu, he⟩

theorem thenExpr {sc : Scope} {depth : Nat} {st : Bool} {α : Type} {p : Expr → P α} {ts rest : List Token} {a : α}
    (h : (Parser.expr sc depth st >>= p) ts = some (a, rest)) : ∃ e us vs, IsExpr sc 1 st us e ∧ ts = us ++ vs ∧ p e vs = some (a, rest) := by
  replace h := bind_some h
  obtain ⟨e, vs, h1, h2⟩ := h
  replace h1 := expr_some h1
  obtain ⟨us, hu, he⟩ := h1
  exact ⟨e, us, vs, he, hu, h2⟩

/-! ## Blocks -/

theorem reverse_eq (ss acc : List Stmt) : reverse ss acc = ss.reverse ++ acc := by
  induction ss generalizing acc with
  | nil => rfl
  | cons s ss ih => rw [reverse, ih, List.reverse_cons, List.append_assoc]; rfl

theorem acceptAssignOp_some {r : Option BinOp} {ts rest : List Token} (h : acceptAssignOp ts = some (r, rest)) :
    (r = none ∧ rest = ts) ∨ ∃ n op, r = some op ∧ assignOp? n = some op ∧ ts = .sym n :: rest := by
  unfold acceptAssignOp at h
  split at h
  · split at h
    · cases h
      exact .inr ⟨_, _, rfl, ‹_›, rfl⟩
    · cases h
      exact .inl ⟨rfl, rfl⟩
  · cases h
    exact .inl ⟨rfl, rfl⟩

theorem thenRange {α : Type} {p : Bool → P α} {ts rest : List Token} {a : α} (h : (range >>= p) ts = some (a, rest)) :
    ∃ incl r us, IsRange r incl ∧ ts = .sym r :: us ∧ p incl us = some (a, rest) := by
  replace h := bind_some h
  obtain ⟨incl, us, h1, h⟩ := h
  unfold range at h1
  replace h1 := ifAccept h1
  rcases h1 with ⟨vs, rfl, h1⟩ | ⟨_, h1⟩
  · cases h1
    exact ⟨_, _, _, .incl, rfl, h⟩
  · replace h1 := expectPure h1
    obtain ⟨rfl, rfl⟩ := h1
    exact ⟨_, _, _, .excl, rfl, h⟩

/-- What the parser for blocks yields follows the grammar, for the given amount of fuel. -/
def BlockSound (sc : Scope) (depth fuel : Nat) : Prop :=
  ∀ {acc ss : List Stmt} {e : Option Expr} {ts rest : List Token}, block sc depth fuel acc ts = some ((ss, e), rest) →
    ∃ us ss', ts = us ++ rest ∧ ss = acc.reverse ++ ss' ∧ IsBlock sc us ss' e

/-- After a block without a value. -/
theorem BlockSound.thenBlock {sc : Scope} {depth fuel : Nat} (hb : BlockSound sc depth fuel) {α : Type} {p : List Stmt → P α} {ts rest : List Token} {a : α}
    (h : (noValue (block sc depth fuel []) >>= p) ts = some (a, rest)) :
    ∃ ss us vs, IsBlock sc us ss none ∧ ts = us ++ vs ∧ p ss vs = some (a, rest) := by
  replace h := bind_some h
  obtain ⟨ss, vs, h1, h⟩ := h
  unfold noValue at h1
  split at h1
  · rename_i h2
    cases h1
    replace h2 := hb h2
    obtain ⟨us, ss', rfl, rfl, h2⟩ := h2
    exact ⟨_, us, vs, h2, rfl, h⟩
  · cases h1

/-- After a statement. -/
theorem BlockSound.cons {sc : Scope} {depth fuel : Nat} (hb : BlockSound sc depth fuel) {acc ss : List Stmt} {e : Option Expr} {s : Stmt}
    {us vs rest : List Token} (hs : IsStmt sc us s) (h : block sc depth fuel (s :: acc) vs = some ((ss, e), rest)) :
    ∃ ws ss', us ++ vs = ws ++ rest ∧ ss = acc.reverse ++ ss' ∧ IsBlock sc ws ss' e := by
  replace h := hb h
  obtain ⟨ws, ss', rfl, rfl, h⟩ := h
  exact ⟨us ++ ws, s :: ss', by simp, by simp, .cons hs h⟩

theorem noKeyword {us vs : List Token} (h1 : NotNext (.word c!"let") (us ++ vs)) (h2 : NotNext (.word c!"if") (us ++ vs))
    (h3 : NotNext (.word c!"for") (us ++ vs)) (h4 : NotNext (.word c!"loop") (us ++ vs)) (h5 : NotNext (.word c!"break") (us ++ vs))
    (h6 : NotNext (.word c!"panic") (us ++ vs)) (h7 : NotNext (.word c!"else") (us ++ vs)) : NoKeyword us := by
  intro n ws hu hn
  subst hu
  simp only [keywords, List.mem_cons, List.not_mem_nil, or_false] at hn
  rcases hn with rfl | rfl | rfl | rfl | rfl | rfl | rfl
  · exact h1 _ rfl
  · exact h2 _ rfl
  · exact h3 _ rfl
  · exact h4 _ rfl
  · exact h5 _ rfl
  · exact h6 _ rfl
  · exact h7 _ rfl

theorem block_sound (sc : Scope) (depth fuel : Nat) : BlockSound sc depth fuel := by
  induction fuel with
  | zero => intro _ _ _ _ _ h; cases h
  | succ fuel hb =>
    intro acc ss e ts rest h
    unfold block at h
    replace h := ifAccept h
    rcases h with ⟨us, rfl, h⟩ | ⟨_, h⟩
    · cases h
      exact ⟨[_], [], rfl, by rw [reverse_eq], .close⟩
    replace h := ifAccept h
    rcases h with ⟨us, rfl, h⟩ | ⟨_, h⟩
    · replace h := hb h
      obtain ⟨us, ss', rfl, rfl, h⟩ := h
      exact ⟨_, _, rfl, rfl, .empty h⟩
    replace h := ifAcceptWord h
    rcases h with ⟨us, rfl, h⟩ | ⟨h1, h⟩
    · replace h := ifAccept h
      rcases h with ⟨us, rfl, h⟩ | ⟨_, h⟩
      · replace h := thenIdent h
        obtain ⟨n, us, rfl, h⟩ := h
        replace h := thenEnsure h
        obtain ⟨hn, h⟩ := h
        rw [beq_true hn]
        replace h := thenExpect h
        obtain ⟨us, rfl, h⟩ := h
        replace h := thenName h
        obtain ⟨n, ms, us, hm, rfl, h⟩ := h
        replace h := thenExpect h
        obtain ⟨us, rfl, h⟩ := h
        replace h := thenExpect h
        obtain ⟨us, rfl, h⟩ := h
        replace h := thenExpr h
        obtain ⟨x, us, vs, hx, rfl, h⟩ := h
        replace h := thenExpect h
        obtain ⟨vs, rfl, h⟩ := h
        have := hb.cons (.letSnd hm hx) h
        simpa using this
      · replace h := thenName h
        obtain ⟨n, ms, us, hm, rfl, h⟩ := h
        replace h := ifAccept h
        rcases h with ⟨us, rfl, h⟩ | ⟨_, h⟩
        · replace h := thenTy h
          obtain ⟨t, us, vs, ht, rfl, h⟩ := h
          replace h := thenExpect h
          obtain ⟨vs, rfl, h⟩ := h
          replace h := thenExpr h
          obtain ⟨x, vs, ws, hx, rfl, h⟩ := h
          replace h := thenExpect h
          obtain ⟨ws, rfl, h⟩ := h
          have := hb.cons (.letTyped hm ht hx) h
          simpa using this
        · replace h := thenExpect h
          obtain ⟨us, rfl, h⟩ := h
          replace h := thenExpr h
          obtain ⟨x, us, vs, hx, rfl, h⟩ := h
          replace h := thenExpect h
          obtain ⟨vs, rfl, h⟩ := h
          have := hb.cons (.letVar hm hx) h
          simpa using this
    replace h := ifAcceptWord h
    rcases h with ⟨us, rfl, h⟩ | ⟨h2, h⟩
    · replace h := thenExpr h
      obtain ⟨c, us, vs, hc, rfl, h⟩ := h
      replace h := thenExpect h
      obtain ⟨vs, rfl, h⟩ := h
      replace h := hb.thenBlock h
      obtain ⟨st, vs, ws, ht, rfl, h⟩ := h
      replace h := ifAcceptWord h
      rcases h with ⟨ws, rfl, h⟩ | ⟨_, h⟩
      · replace h := thenExpect h
        obtain ⟨ws, rfl, h⟩ := h
        replace h := hb.thenBlock h
        obtain ⟨se, ws, xs, he, rfl, h⟩ := h
        have := hb.cons (.ifElse hc ht he) h
        simpa using this
      · have := hb.cons (.ifThen hc ht) h
        simpa using this
    replace h := ifAcceptWord h
    rcases h with ⟨us, rfl, h⟩ | ⟨h3, h⟩
    · replace h := thenIdent h
      obtain ⟨n, us, rfl, h⟩ := h
      replace h := bind_some h
      obtain ⟨b, vs, hi, h⟩ := h
      replace h := thenEnsure h
      obtain ⟨rfl, h⟩ := h
      replace hi := acceptWord_some hi
      obtain ⟨_, rfl⟩ := hi.resolve_right fun h => by cases h.1
      replace h := thenExpr h
      obtain ⟨lo, us, vs, hlo, rfl, h⟩ := h
      replace h := thenRange h
      obtain ⟨incl, r, vs, hr, rfl, h⟩ := h
      replace h := thenExpr h
      obtain ⟨hi, vs, ws, hhi, rfl, h⟩ := h
      replace h := thenExpect h
      obtain ⟨ws, rfl, h⟩ := h
      replace h := hb.thenBlock h
      obtain ⟨sb, ws, xs, hbl, rfl, h⟩ := h
      have := hb.cons (.forIn (n := n) hlo hr hhi hbl) h
      simpa using this
    replace h := ifAcceptWord h
    rcases h with ⟨us, rfl, h⟩ | ⟨h4, h⟩
    · replace h := thenExpect h
      obtain ⟨us, rfl, h⟩ := h
      replace h := hb.thenBlock h
      obtain ⟨sb, us, vs, hbl, rfl, h⟩ := h
      have := hb.cons (.loop hbl) h
      simpa using this
    replace h := ifAcceptWord h
    rcases h with ⟨us, rfl, h⟩ | ⟨h5, h⟩
    · replace h := thenExpect h
      obtain ⟨us, rfl, h⟩ := h
      have := hb.cons .break h
      simpa using this
    replace h := ifAcceptWord h
    rcases h with ⟨us, rfl, h⟩ | ⟨h6, h⟩
    · replace h := thenExpect h
      obtain ⟨us, rfl, h⟩ := h
      replace h := thenExpect h
      obtain ⟨us, rfl, h⟩ := h
      replace h := thenExpect h
      obtain ⟨us, rfl, h⟩ := h
      have := hb.cons .panic h
      simpa using this
    replace h := ifAcceptWord h
    rcases h with ⟨us, rfl, h⟩ | ⟨h7, h⟩
    · cases h
    replace h := thenExpr h
    obtain ⟨x, us, vs, hx, rfl, h⟩ := h
    have hk := noKeyword h1 h2 h3 h4 h5 h6 h7
    replace h := ifAccept h
    rcases h with ⟨vs, rfl, h⟩ | ⟨_, h⟩
    · replace h := thenExpr h
      obtain ⟨y, vs, ws, hy, rfl, h⟩ := h
      replace h := thenExpect h
      obtain ⟨ws, rfl, h⟩ := h
      have := hb.cons (.assign hk hx hy) h
      simpa using this
    replace h := bind_some h
    obtain ⟨o, ws, ho, h⟩ := h
    replace ho := acceptAssignOp_some ho
    rcases ho with ⟨rfl, rfl⟩ | ⟨n, op, rfl, hn, rfl⟩
    · replace h := ifAccept h
      rcases h with ⟨vs, rfl, h⟩ | ⟨_, h⟩
      · cases h
        exact ⟨us ++ [_], [], by simp, by rw [reverse_eq], .value hk hx⟩
      · replace h := thenExpect h
        obtain ⟨vs, rfl, h⟩ := h
        cases x
        case method r m as =>
          have := hb.cons (.mutate hk hx) h
          simpa using this
        all_goals cases h
    · replace h := thenExpr h
      obtain ⟨y, vs, ws, hy, rfl, h⟩ := h
      replace h := thenExpect h
      obtain ⟨ws, rfl, h⟩ := h
      have := hb.cons (.assignOp hn hk hx hy) h
      simpa using this

/-! ## Items -/

theorem decls_some {k : Nat} {fuel : Nat} : ∀ {ds : List (Nat × Ty)} {ts rest : List Token}, decls k fuel ts = some (ds, rest) →
    ∃ us, ts = us ++ rest ∧ IsDecls k us ds := by
  induction fuel with
  | zero => intro _ _ _ h; cases h
  | succ fuel ih =>
    intro ds ts rest h
    unfold decls at h
    replace h := ifAccept h
    rcases h with ⟨us, rfl, h⟩ | ⟨_, h⟩
    · cases h
      exact ⟨[_], rfl, .close⟩
    · replace h := thenName h
      obtain ⟨n, ms, us, hm, rfl, h⟩ := h
      replace h := thenExpect h
      obtain ⟨us, rfl, h⟩ := h
      replace h := thenTy h
      obtain ⟨t, us, vs, ht, rfl, h⟩ := h
      replace h := ifAccept h
      rcases h with ⟨vs, rfl, h⟩ | ⟨_, h⟩
      · replace h := bind_some h
        obtain ⟨ds, vs, hd, h⟩ := h
        cases h
        replace hd := ih hd
        obtain ⟨ws, rfl, hd⟩ := hd
        exact ⟨_, by simp, .cons hm ht hd⟩
      · replace h := expectPure h
        obtain ⟨rfl, rfl⟩ := h
        exact ⟨_, by simp, .last hm ht⟩

theorem skipTo_some {x : Nat} {ts rest : List Token} {u : Unit} (h : skipTo x ts = some (u, rest)) :
    ∃ us, ts = us ++ .sym x :: rest ∧ .sym x ∉ us := by
  induction ts with
  | nil => cases h
  | cons t ts ih =>
    unfold skipTo at h
    have hother : skipTo x ts = some (u, rest) → t ≠ .sym x → ∃ us, t :: ts = us ++ .sym x :: rest ∧ .sym x ∉ us := by
      intro h ht
      obtain ⟨us, hu, hn⟩ := ih h
      exact ⟨t :: us, by rw [hu]; rfl, by simp only [List.mem_cons, not_or]; exact ⟨fun e => ht e.symm, hn⟩⟩
    cases t with
    | sym s =>
      cases hs : Nat.beq s x
      · simp only [hs, cond_false] at h
        exact hother h (fun e => by cases e; rw [Nat.beq_refl] at hs; cases hs)
      · simp only [hs, cond_true] at h
        cases h
        exact ⟨[], by rw [beq_true hs]; rfl, by simp⟩
    | _ => exact hother h (fun e => by cases e)

/-- The closing braces of `n` groups, each preceded by tokens with their braces balanced; after them `rest`. -/
inductive Closes : Nat → List Token → List Token → Prop
  | zero {ts rest : List Token} : Balanced ts → Closes 0 (ts ++ .sym c!"}" :: rest) rest
  | succ {n : Nat} {ts us rest : List Token} : Balanced ts → Closes n us rest → Closes (n + 1) (ts ++ .sym c!"}" :: us) rest

theorem Closes.token {n : Nat} {t : Token} {ts rest : List Token} (h : Closes n ts rest) (h1 : t ≠ .sym c!"{") (h2 : t ≠ .sym c!"}") :
    Closes n (t :: ts) rest := by
  cases h with
  | zero hb => exact .zero (.token h1 h2 hb)
  | succ hb h => exact .succ (.token h1 h2 hb) h

theorem Closes.group {n : Nat} {ts rest : List Token} (h : Closes (n + 1) ts rest) : Closes n (.sym c!"{" :: ts) rest := by
  cases h with
  | succ hb h =>
    cases h with
    | zero hb' =>
      have := Closes.zero (rest := rest) (Balanced.group hb hb')
      simpa using this
    | succ hb' h =>
      have := Closes.succ (Balanced.group hb hb') h
      simpa using this

theorem skipBraces_some {ts : List Token} : ∀ {n : Nat} {rest : List Token} {u : Unit}, skipBraces n ts = some (u, rest) → Closes n ts rest := by
  induction ts with
  | nil => intro _ _ _ h; cases h
  | cons t ts ih =>
    intro n rest u h
    unfold skipBraces at h
    cases t with
    | sym s =>
      cases hs : Nat.beq s c!"{"
      · cases hs' : Nat.beq s c!"}"
        · simp only [hs, hs', cond_false] at h
          exact (ih h).token (fun e => by cases e; cases hs) (fun e => by cases e; cases hs')
        · simp only [hs, hs', cond_false, cond_true] at h
          rw [beq_true hs']
          cases n with
          | zero => cases h; exact .zero .nil
          | succ n => exact .succ .nil (ih h)
      · simp only [hs, cond_true] at h
        rw [beq_true hs]
        exact (ih h).group
    | _ => exact (ih h).token (fun e => by cases e) (fun e => by cases e)

theorem items_sound {depth fuel : Nat} : ∀ {sc : Scope} {test : Bool} {fns : List Fn} {ts rest : List Token},
    items depth fuel sc test ts = some (fns, rest) → rest = [] ∧ IsItems sc test ts fns := by
  induction fuel with
  | zero => intro _ _ _ _ _ h; cases h
  | succ fuel ih =>
    intro sc test fns ts rest h
    cases ts with
    | nil => cases h; exact ⟨rfl, .nil⟩
    | cons t ts =>
      unfold items at h
      replace h := ifAccept h
      rcases h with ⟨us, hu, h⟩ | ⟨_, h⟩
      · rw [hu]
        replace h := thenExpect h
        obtain ⟨us, rfl, h⟩ := h
        replace h := thenIdent h
        obtain ⟨n, us, rfl, h⟩ := h
        replace h := bind_some h
        obtain ⟨_, vs, h1, h⟩ := h
        replace h1 := skipTo_some h1
        obtain ⟨us, rfl, hn⟩ := h1
        exact ⟨(ih h).1, .attribute hn (ih h).2⟩
      · generalize t :: ts = ts at h ⊢
        replace h := thenPub h
        obtain ⟨b, ps, us, hp, rfl, h⟩ := h
        replace h := ifAcceptWord h
        rcases h with ⟨us, rfl, h⟩ | ⟨_, h⟩
        · replace h := thenEnsure h
          obtain ⟨hb, h⟩ := h
          cases hp with
          | yes => cases hb
          | no =>
          replace h := thenIdent h
          obtain ⟨n, us, rfl, h⟩ := h
          replace h := bind_some h
          obtain ⟨path, us, h1, h⟩ := h
          replace h1 := pathRest_some h1
          obtain ⟨vs, rfl, hpath⟩ := h1
          replace h := ifAcceptWord h
          rcases h with ⟨us, rfl, h⟩ | ⟨_, h⟩
          · replace h := thenIdent h
            obtain ⟨m, us, rfl, h⟩ := h
            replace h := thenExpect h
            obtain ⟨us, rfl, h⟩ := h
            exact ⟨(ih h).1, .useAs hpath (ih h).2⟩
          · replace h := thenExpect h
            obtain ⟨us, rfl, h⟩ := h
            refine ⟨(ih h).1, .use hpath ?_⟩
            have := (ih h).2
            cases hn : Nat.beq n c!"crate"
            · rw [hn] at this
              rw [if_neg fun e => by rw [e] at hn; cases hn]
              exact this
            · rw [hn] at this
              rw [if_pos (beq_true hn)]
              exact this
        replace h := ifAcceptWord h
        rcases h with ⟨us, rfl, h⟩ | ⟨_, h⟩
        · replace h := thenIdent h
          obtain ⟨n, us, rfl, h⟩ := h
          replace h := thenExpect h
          obtain ⟨us, rfl, h⟩ := h
          replace h := thenTy h
          obtain ⟨t, us, vs, ht, rfl, h⟩ := h
          replace h := thenExpect h
          obtain ⟨vs, rfl, h⟩ := h
          replace h := thenExpr h
          obtain ⟨x, vs, ws, hx, rfl, h⟩ := h
          replace h := thenExpect h
          obtain ⟨ws, rfl, h⟩ := h
          replace h := bind_some h
          obtain ⟨fns', ws', h1, h⟩ := h
          cases h
          exact ⟨(ih h1).1, .const hp ht hx (ih h1).2⟩
        replace h := ifAcceptWord h
        rcases h with ⟨us, rfl, h⟩ | ⟨_, h⟩
        · replace h := thenIdent h
          obtain ⟨n, us, rfl, h⟩ := h
          replace h := thenExpect h
          obtain ⟨us, rfl, h⟩ := h
          replace h := bind_some h
          obtain ⟨ds, us, h1, h⟩ := h
          replace h1 := decls_some h1
          obtain ⟨vs, rfl, hd⟩ := h1
          exact ⟨(ih h).1, .struct hp hd (ih h).2⟩
        replace h := bind_some h
        obtain ⟨b, vs, hi, h⟩ := h
        replace h := thenEnsure h
        obtain ⟨rfl, h⟩ := h
        replace hi := acceptWord_some hi
        obtain ⟨_, rfl⟩ := hi.resolve_right fun h => by cases h.1
        replace h := thenIdent h
        obtain ⟨n, us, rfl, h⟩ := h
        cases test with
        | true =>
          replace h := bind_some h
          obtain ⟨_, vs, h1, h⟩ := h
          replace h1 := skipTo_some h1
          obtain ⟨us, rfl, hn⟩ := h1
          replace h := bind_some h
          obtain ⟨_, ws, h1, h⟩ := h
          replace h1 := skipBraces_some h1
          cases h1 with
          | zero hb => exact ⟨(ih h).1, .test hp hn hb (ih h).2⟩
        | false =>
          replace h := thenExpect h
          obtain ⟨us, rfl, h⟩ := h
          replace h := bind_some h
          obtain ⟨ds, us, h1, h⟩ := h
          replace h1 := decls_some h1
          obtain ⟨vs, rfl, hd⟩ := h1
          replace h := thenExpect h
          obtain ⟨us, rfl, h⟩ := h
          replace h := thenTy h
          obtain ⟨t, us, ws, ht, rfl, h⟩ := h
          replace h := thenExpect h
          obtain ⟨ws, rfl, h⟩ := h
          replace h := bind_some h
          obtain ⟨⟨ss, e⟩, xs, h1, h⟩ := h
          replace h1 := block_sound _ _ _ h1
          obtain ⟨ws, ss', rfl, rfl, hb⟩ := h1
          cases e with
          | none => cases h
          | some e =>
            replace h := bind_some h
            obtain ⟨fns', ws', h1, h⟩ := h
            cases h
            exact ⟨(ih h1).1, .fn hp hd ht hb (ih h1).2⟩

end Proofs.Grammar

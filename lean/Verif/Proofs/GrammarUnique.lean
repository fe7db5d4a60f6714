import Verif.Proofs.Grammar

/-!
# The grammar is unambiguous

If a sequence of tokens stands for something by the rules of `Source.Grammar`, the parser yields it, given enough fuel. As the parser is a
function, no sequence of tokens stands for two different things.
-/

namespace Proofs.Grammar
open Source Source.Parser Source.Grammar

/-! ## From some number on -/

/-- The statement holds from some number on. -/
def Ev (φ : Nat → Prop) : Prop := ∃ N, ∀ n, N ≤ n → φ n

namespace Ev

theorem of {φ : Nat → Prop} (h : ∀ n, φ n) : Ev φ := ⟨0, fun n _ => h n⟩

theorem and {φ ψ : Nat → Prop} (h : Ev φ) (h' : Ev ψ) : Ev fun n => φ n ∧ ψ n := by
  obtain ⟨N, h⟩ := h
  obtain ⟨N', h'⟩ := h'
  exact ⟨max N N', fun n hn => ⟨h n (by omega), h' n (by omega)⟩⟩

theorem mono {φ ψ : Nat → Prop} (h : Ev φ) (h' : ∀ n, φ n → ψ n) : Ev ψ := by
  obtain ⟨N, h⟩ := h
  exact ⟨N, fun n hn => h' n (h n hn)⟩

theorem succ {φ ψ : Nat → Prop} (h : Ev φ) (h' : ∀ n, φ n → ψ (n + 1)) : Ev ψ := by
  obtain ⟨N, h⟩ := h
  refine ⟨N + 1, fun n hn => ?_⟩
  obtain ⟨m, rfl⟩ : ∃ m, n = m + 1 := ⟨n - 1, by omega⟩
  exact h' m (h m (by omega))

theorem exists_both {φ ψ : Nat → Prop} (h : Ev φ) (h' : Ev ψ) : ∃ n, φ n ∧ ψ n := by
  obtain ⟨N, h⟩ := h.and h'
  exact ⟨N, h N (Nat.le_refl N)⟩

end Ev

/-! ## Elementary parsers -/

theorem bind_eq {α β : Type} {p : P α} {f : α → P β} {ts us : List Token} {a : α} (h : p ts = some (a, us)) : (p >>= f) ts = f a us := by
  change (match p ts with | some (a, ts) => f a ts | none => none) = _
  rw [h]

theorem accept_yes {s : Nat} {ts : List Token} : accept s (.sym s :: ts) = some (true, ts) := by
  simp only [accept, Nat.beq_refl, cond_true]

theorem accept_no {s : Nat} {ts : List Token} (h : NotNext (.sym s) ts) : accept s ts = some (false, ts) := by
  unfold accept
  split
  · rename_i t rest
    cases hb : Nat.beq s t
    · rfl
    · exact (h rest (by rw [beq_true hb])).elim
  · rfl

theorem acceptWord_yes {s : Nat} {ts : List Token} : acceptWord s (.word s :: ts) = some (true, ts) := by
  simp only [acceptWord, Nat.beq_refl, cond_true]

theorem acceptWord_no {s : Nat} {ts : List Token} (h : NotNext (.word s) ts) : acceptWord s ts = some (false, ts) := by
  unfold acceptWord
  split
  · rename_i t rest
    cases hb : Nat.beq s t
    · rfl
    · exact (h rest (by rw [beq_true hb])).elim
  · rfl

theorem ifAccept_yes {α : Type} {s : Nat} {p q : P α} {ts : List Token} :
    (accept s >>= fun b => if b = true then p else q) (.sym s :: ts) = p ts := bind_eq accept_yes

theorem ifAccept_no {α : Type} {s : Nat} {p q : P α} {ts : List Token} (h : NotNext (.sym s) ts) :
    (accept s >>= fun b => if b = true then p else q) ts = q ts := bind_eq (accept_no h)

theorem ifAcceptWord_yes {α : Type} {s : Nat} {p q : P α} {ts : List Token} :
    (acceptWord s >>= fun b => if b = true then p else q) (.word s :: ts) = p ts := bind_eq acceptWord_yes

theorem ifAcceptWord_no {α : Type} {s : Nat} {p q : P α} {ts : List Token} (h : NotNext (.word s) ts) :
    (acceptWord s >>= fun b => if b = true then p else q) ts = q ts := bind_eq (acceptWord_no h)

theorem expect_yes {s : Nat} {ts : List Token} : expect s (.sym s :: ts) = some ((), ts) := by
  simp only [expect, Nat.beq_refl, cond_true]

theorem thenExpect_yes {α : Type} {s : Nat} {p : Unit → P α} {ts : List Token} : (expect s >>= p) (.sym s :: ts) = p () ts := bind_eq expect_yes

theorem thenIdent_yes {α : Type} {n : Nat} {p : Nat → P α} {ts : List Token} : (ident >>= p) (.word n :: ts) = p n ts := rfl

theorem thenNumeral_yes {α : Type} {n : Nat} {p : Nat → P α} {ts : List Token} : (numeral >>= p) (.num n :: ts) = p n ts := rfl

theorem ensure_yes {α : Type} {b : Bool} (h : b = true) {p : Unit → P α} {ts : List Token} : (ensure b >>= p) ts = p () ts := by
  subst h
  rfl

theorem notNext_sym {s t : Nat} (h : t ≠ s) {ts : List Token} : NotNext (.sym s) (.sym t :: ts) := fun us hu => by cases hu; exact h rfl
theorem notNext_word {s t : Nat} (h : t ≠ s) {ts : List Token} : NotNext (.word s) (.word t :: ts) := fun us hu => by cases hu; exact h rfl
theorem notNext_sym_word {s t : Nat} {ts : List Token} : NotNext (.sym s) (.word t :: ts) := fun us hu => by cases hu
theorem notNext_word_sym {s t : Nat} {ts : List Token} : NotNext (.word s) (.sym t :: ts) := fun us hu => by cases hu
theorem notNext_num {n : Nat} {t : Token} (h : t ≠ .num n) {ts : List Token} : NotNext t (.num n :: ts) := fun us hu => by cases hu; exact h rfl

theorem beq_false {m n : Nat} (h : m ≠ n) : Nat.beq m n = false := by
  cases hb : Nat.beq m n
  · rfl
  · exact (h (beq_true hb)).elim

theorem thenIntTy_yes {α : Type} {n : Nat} {t : IntTy} (h : intTy? n = some t) {p : IntTy → P α} {ts : List Token} :
    (intTy >>= p) (.word n :: ts) = p t ts := by
  refine bind_eq ?_
  unfold intTy
  refine thenIdent_yes.trans ?_
  rw [h]
  rfl

/-! ## Types, names and paths -/

theorem ty_complete {ts : List Token} {t : Ty} (h : IsTy ts t) (rest : List Token) : ty (ts ++ rest) = some (t, rest) := by
  have key : ∀ {us : List Token}, IsBareTy us t → (do
      if (← accept c!"[") then
        let t ← intTy
        if (← accept c!";") then
          let n ← numeral
          expect c!"]"
          pure (.array t n)
        else
          expect c!"]"
          pure (.vec t)
      else
        let s ← ident
        if Nat.beq s c!"Vec" then
          expect c!"<"
          let t ← intTy
          expect c!">"
          pure (.vec t)
        else match intTy? s with
          | some t => pure (.int t)
          | none => pure (.struct (decode s)) : P Ty) (us ++ rest) = some (t, rest) := by
    intro us h
    cases h with
    | array hn =>
      refine ifAccept_yes.trans ?_
      refine (thenIntTy_yes hn).trans ?_
      refine ifAccept_yes.trans ?_
      refine thenNumeral_yes.trans ?_
      exact thenExpect_yes
    | slice hn =>
      refine ifAccept_yes.trans ?_
      refine (thenIntTy_yes hn).trans ?_
      refine (ifAccept_no (notNext_sym (by decide))).trans ?_
      exact thenExpect_yes
    | vec hn =>
      refine (ifAccept_no notNext_sym_word).trans ?_
      refine thenIdent_yes.trans ?_
      refine thenExpect_yes.trans ?_
      refine (thenIntTy_yes hn).trans ?_
      exact thenExpect_yes
    | @int n t hn =>
      refine (ifAccept_no notNext_sym_word).trans ?_
      refine thenIdent_yes.trans ?_
      rw [beq_false (fun e => by rw [e] at hn; cases hn), hn]
      rfl
    | @struct n hn hv =>
      refine (ifAccept_no notNext_sym_word).trans ?_
      refine thenIdent_yes.trans ?_
      rw [beq_false hv, hn]
      rfl
  unfold ty skip
  cases h with
  | ref h => exact (bind_eq (bind_eq accept_yes)).trans (key h)
  | bare h =>
    have hn : NotNext (.sym c!"&") (ts ++ rest) := by
      cases h <;> first | exact notNext_sym_word | exact notNext_sym (by decide)
    exact (bind_eq (bind_eq (accept_no hn))).trans (key h)

theorem thenTy_yes {α : Type} {ts : List Token} {t : Ty} (h : IsTy ts t) {p : Ty → P α} {rest : List Token} :
    (ty >>= p) (ts ++ rest) = p t rest := bind_eq (ty_complete h rest)

theorem thenName_yes {α : Type} {ts : List Token} {n : Nat} (h : IsName ts n) {p : Nat → P α} {rest : List Token} :
    (skip (acceptWord c!"mut") >>= fun _ => ident >>= p) (ts ++ rest) = p n rest := by
  unfold skip
  cases h with
  | plain h => exact (bind_eq (bind_eq (acceptWord_no (notNext_word h)))).trans thenIdent_yes
  | mutable => exact (bind_eq (bind_eq acceptWord_yes)).trans thenIdent_yes

theorem path_complete {ts : List Token} {path : List Nat} (h : IsPath ts path) {rest : List Token} (hr : NotNext (.sym c!"::") rest) :
    Ev fun n => pathRest n (ts ++ rest) = some (path, rest) := by
  induction h with
  | nil =>
    refine (Ev.of fun _ => trivial).succ fun n _ => ?_
    unfold pathRest
    exact ifAccept_no hr
  | name h ih =>
    refine ih.succ fun n hn => ?_
    unfold pathRest
    refine ifAccept_yes.trans ?_
    refine (ifAccept_no notNext_sym_word).trans ?_
    refine thenIdent_yes.trans ?_
    exact bind_eq hn
  | type h ih =>
    refine ih.succ fun n hn => ?_
    unfold pathRest
    refine ifAccept_yes.trans ?_
    refine ifAccept_yes.trans ?_
    refine thenIdent_yes.trans ?_
    refine thenExpect_yes.trans ?_
    exact bind_eq hn

/-! ## What may follow an expression -/

/-- An atom has come to its end. -/
structure AtomEnds (st : Bool) (ts : List Token) : Prop where
  paren : NotNext (.sym c!"(") ts
  path : NotNext (.sym c!"::") ts
  brace : st = true → NotNext (.sym c!"{") ts

/-- So have the indices, fields and methods. -/
structure SuffixEnds (st : Bool) (ts : List Token) : Prop extends AtomEnds st ts where
  bracket : NotNext (.sym c!"[") ts
  dot : NotNext (.sym c!".") ts

/-- So have the casts. -/
structure CastEnds (st : Bool) (ts : List Token) : Prop extends SuffixEnds st ts where
  as : NotNext (.word c!"as") ts

/-- So have the binary operators. -/
structure Ends (st : Bool) (ts : List Token) : Prop extends CastEnds st ts where
  stop : Stop 1 ts

/-- Is the symbol none of those that continue an expression? -/
def endSym (st : Bool) (s : Nat) : Bool :=
  !Nat.beq s c!"(" && !Nat.beq s c!"::" && !(st && Nat.beq s c!"{") && !Nat.beq s c!"[" && !Nat.beq s c!"." && (binOp? s).isNone

theorem castEnds_sym {st : Bool} {s : Nat} {ts : List Token} (h1 : s ≠ c!"(") (h2 : s ≠ c!"::") (h3 : st = true → s ≠ c!"{") (h4 : s ≠ c!"[")
    (h5 : s ≠ c!".") : CastEnds st (.sym s :: ts) :=
  { paren := notNext_sym h1, path := notNext_sym h2, brace := fun hs => notNext_sym (h3 hs), bracket := notNext_sym h4, dot := notNext_sym h5,
    as := notNext_word_sym }

theorem ends_sym {st : Bool} {s : Nat} (h : endSym st s = true) {ts : List Token} : Ends st (.sym s :: ts) := by
  unfold endSym at h
  simp only [Bool.and_eq_true, Bool.not_eq_true', Option.isNone_iff_eq_none] at h
  obtain ⟨⟨⟨⟨⟨h1, h2⟩, h3⟩, h4⟩, h5⟩, h6⟩ := h
  refine { castEnds_sym (fun e => ?_) (fun e => ?_) (fun hs e => ?_) (fun e => ?_) (fun e => ?_) with stop := ?_ }
  · rw [e] at h1; cases h1
  · rw [e] at h2; cases h2
  · rw [e, hs] at h3; cases h3
  · rw [e] at h4; cases h4
  · rw [e] at h5; cases h5
  · intro n us k op hu hn
    cases hu
    rw [h6] at hn
    cases hn

theorem castEnds_op {st : Bool} {n k : Nat} {op : BinOp} (h : binOp? n = some (k, op)) {ts : List Token} : CastEnds st (.sym n :: ts) := by
  refine castEnds_sym (fun e => ?_) (fun e => ?_) (fun _ e => ?_) (fun e => ?_) (fun e => ?_) <;> rw [e] at h <;> cases h

theorem suffixEnds_as {st : Bool} {ts : List Token} : SuffixEnds st (.word c!"as" :: ts) :=
  { paren := notNext_sym_word, path := notNext_sym_word, brace := fun _ => notNext_sym_word, bracket := notNext_sym_word, dot := notNext_sym_word }

theorem atomEnds_sym {st : Bool} {s : Nat} {ts : List Token} (h1 : s ≠ c!"(") (h2 : s ≠ c!"::") (h3 : s ≠ c!"{") : AtomEnds st (.sym s :: ts) :=
  { paren := notNext_sym h1, path := notNext_sym h2, brace := fun _ => notNext_sym h3 }

/-! ## How an expression begins -/

/-- Numerals, words, and the given symbols. -/
def Begins (symbols : List Nat) (ts : List Token) : Prop :=
  ∃ t us, ts = t :: us ∧ ((∃ n, t = .num n) ∨ (∃ n, t = .word n) ∨ ∃ s, t = .sym s ∧ s ∈ symbols)

theorem Begins.append {l : List Nat} {ts : List Token} (h : Begins l ts) (us : List Token) : Begins l (ts ++ us) := by
  obtain ⟨t, vs, rfl, h⟩ := h
  exact ⟨t, vs ++ us, rfl, h⟩

theorem Begins.mono {l m : List Nat} {ts : List Token} (h : Begins l ts) (hm : ∀ s ∈ l, s ∈ m) : Begins m ts := by
  obtain ⟨t, us, hu, h⟩ := h
  refine ⟨t, us, hu, ?_⟩
  rcases h with h | h | ⟨s, hs, h⟩
  · exact .inl h
  · exact .inr (.inl h)
  · exact .inr (.inr ⟨s, hs, hm s h⟩)

theorem Begins.notNext {l : List Nat} {ts : List Token} (h : Begins l ts) {s : Nat} (hs : s ∉ l) {rest : List Token} :
    NotNext (.sym s) (ts ++ rest) := by
  obtain ⟨t, us, rfl, h⟩ := h
  intro vs hv
  cases hv
  rcases h with ⟨_, h⟩ | ⟨_, h⟩ | ⟨s', h, hs'⟩
  · cases h
  · cases h
  · cases h; exact hs hs'

theorem begins_sym {l : List Nat} {s : Nat} (h : s ∈ l) {ts : List Token} : Begins l (.sym s :: ts) := ⟨_, _, rfl, .inr (.inr ⟨s, rfl, h⟩)⟩

/-- Symbols that begin an atom. -/
abbrev atomFirst : List Nat := [c!"(", c!"["]
/-- Symbols that begin an expression. -/
abbrev exprFirst : List Nat := [c!"(", c!"[", c!"-", c!"&"]

theorem atom_expr {ts : List Token} (h : Begins atomFirst ts) : Begins exprFirst ts :=
  h.mono fun s hs => by
    simp only [List.mem_cons, List.not_mem_nil, or_false] at hs ⊢
    omega

/-! ## Expressions -/

section
variable (sc : Scope)

/-- Atoms. -/
def ClaimA (st : Bool) (ts : List Token) (e : Expr) : Prop :=
  Begins atomFirst ts ∧ ∀ rest, AtomEnds st rest → Ev fun n => (exprs sc n).atom st (ts ++ rest) = some (e, rest)

/-- Indices, fields and methods. -/
def ClaimS (st : Bool) (ts : List Token) (e : Expr) : Prop :=
  Begins atomFirst ts ∧ ∀ rest e' r, AtomEnds st rest → (Ev fun n => (exprs sc n).suffix e rest = some (e', r)) →
    Ev fun n => (exprs sc n).unary st (ts ++ rest) = some (e', r)

/-- Negation and references. -/
def ClaimU (st : Bool) (ts : List Token) (e : Expr) : Prop :=
  Begins exprFirst ts ∧ ∀ rest, SuffixEnds st rest → Ev fun n => (exprs sc n).unary st (ts ++ rest) = some (e, rest)

/-- Casts. -/
def ClaimC (st : Bool) (ts : List Token) (e : Expr) : Prop :=
  Begins exprFirst ts ∧ ∀ rest e' r, SuffixEnds st rest → (Ev fun n => casts n e rest = some (e', r)) →
    Ev fun n => ∃ x us, (exprs sc n).unary st (ts ++ rest) = some (x, us) ∧ casts n x us = some (e', r)

/-- Binary operators of strength at least `l`. -/
def ClaimE (l : Nat) (st : Bool) (ts : List Token) (e : Expr) : Prop :=
  Begins exprFirst ts ∧ ∀ k rest e' r, k ≤ l → CastEnds st rest → Stop (l + 1) rest → (Ev fun n => (exprs sc n).ops k st e rest = some (e', r)) →
    Ev fun n => (exprs sc n).expr k st (ts ++ rest) = some (e', r)

/-- An expression followed by what ends it. -/
def Whole (st : Bool) (ts : List Token) (e : Expr) : Prop :=
  Begins exprFirst ts ∧ ∀ rest, Ends st rest → Ev fun n => (exprs sc n).expr 1 st (ts ++ rest) = some (e, rest)

/-- What the parser does with an expression, by how strongly it binds. -/
def Claim (l : Nat) (st : Bool) (ts : List Token) (e : Expr) : Prop :=
  if l ≤ 7 then ClaimE sc l st ts e else if l = 8 then ClaimC sc st ts e else if l = 9 then ClaimU sc st ts e
  else if l = 10 then ClaimS sc st ts e else ClaimA sc st ts e

/-- What it does with arguments. -/
def ClaimArgs (close : Nat) (ts : List Token) (es : List Expr) : Prop :=
  close = c!")" ∨ close = c!"]" → ∀ rest, Ev fun n => (exprs sc n).args close (ts ++ rest) = some (es, rest)

/-- What it does with the fields of a struct literal. -/
def ClaimInits (ts : List Token) (ns : List Nat) (es : List Expr) : Prop :=
  ∀ rest, ∃ inits, inits.map Prod.fst = ns ∧ inits.map Prod.snd = es ∧ Ev fun n => (exprs sc n).fieldInits (ts ++ rest) = some (inits, rest)

end

variable {sc : Scope}

theorem stop_mono {l m : Nat} (h : l ≤ m) {ts : List Token} (hs : Stop l ts) : Stop m ts := fun n us k op hu hk => by
  have := hs n us k op hu hk
  omega

theorem ops_none {k : Nat} {st : Bool} {e : Expr} {ts : List Token} (h : Stop k ts) :
    Ev fun n => (exprs sc n).ops k st e ts = some (e, ts) := by
  refine (Ev.of fun _ => trivial).succ fun n _ => ?_
  refine bind_eq (a := none) (us := ts) ?_
  unfold acceptOp
  split
  · rename_i s rest
    split
    · rename_i l op hl
      have := h _ _ _ _ rfl hl
      have hb : Nat.ble k l = false := by
        cases hb : Nat.ble k l
        · rfl
        · have := Nat.le_of_ble_eq_true hb; omega
      rw [hb]
      rfl
    · rfl
  · rfl

theorem ops_some {k l : Nat} {s : Nat} {op : BinOp} (hs : binOp? s = some (l, op)) (hk : k ≤ l) {st : Bool} {a b e : Expr}
    {ts us rest : List Token} (hb : Ev fun n => (exprs sc n).expr (l + 1) st ts = some (b, us))
    (h : Ev fun n => (exprs sc n).ops k st (.bin op a b) us = some (e, rest)) :
    Ev fun n => (exprs sc n).ops k st a (.sym s :: ts) = some (e, rest) := by
  refine (hb.and h).succ fun n ⟨hb, h⟩ => ?_
  refine (bind_eq (a := some (l, op)) (us := ts) ?_).trans ?_
  · simp only [acceptOp, hs]
    rw [Nat.ble_eq.mpr hk]
    rfl
  · exact (bind_eq hb).trans h

theorem casts_none {e : Expr} {ts : List Token} (h : NotNext (.word c!"as") ts) : Ev fun n => casts n e ts = some (e, ts) := by
  refine (Ev.of fun _ => trivial).succ fun n _ => ?_
  unfold casts
  exact ifAcceptWord_no h

theorem claimU_of_S {st : Bool} {ts : List Token} {e : Expr} (h : ClaimS sc st ts e) : ClaimU sc st ts e := by
  refine ⟨atom_expr h.1, fun rest hr => h.2 rest e rest hr.toAtomEnds ?_⟩
  refine (Ev.of fun _ => trivial).succ fun n _ => ?_
  refine (ifAccept_no hr.bracket).trans ?_
  exact ifAccept_no hr.dot

theorem claimS_of_A {st : Bool} {ts : List Token} {e : Expr} (h : ClaimA sc st ts e) : ClaimS sc st ts e := by
  refine ⟨h.1, fun rest e' r hr hs => ((h.2 rest hr).and hs).succ fun n ⟨ha, hs⟩ => ?_⟩
  refine (ifAccept_no (h.1.notNext (by decide))).trans ?_
  refine (ifAccept_no (h.1.notNext (by decide))).trans ?_
  exact (bind_eq ha).trans hs

theorem claimC_of_U {st : Bool} {ts : List Token} {e : Expr} (h : ClaimU sc st ts e) : ClaimC sc st ts e :=
  ⟨h.1, fun rest _ _ hr hc => ((h.2 rest hr).and hc).mono fun _ ⟨hu, hc⟩ => ⟨e, rest, hu, hc⟩⟩

theorem claimE_of_C {st : Bool} {ts : List Token} {e : Expr} (h : ClaimC sc st ts e) (l : Nat) : ClaimE sc l st ts e := by
  refine ⟨h.1, fun k rest e' r _ hr _ ho => ?_⟩
  refine ((h.2 rest e rest hr.toSuffixEnds (casts_none hr.as)).and ho).succ fun n ⟨⟨x, us, hu, hc⟩, ho⟩ => ?_
  refine (bind_eq hu).trans ?_
  exact (bind_eq hc).trans ho

theorem claimE_of {l : Nat} (hl : l ≤ 8) {st : Bool} {ts : List Token} {e : Expr} (h : Claim sc l st ts e) : ClaimE sc l st ts e := by
  unfold Claim at h
  split at h
  · exact h
  · rw [if_pos (by omega)] at h
    exact claimE_of_C h l

theorem whole_of {st : Bool} {ts : List Token} {e : Expr} (h : Claim sc 1 st ts e) : Whole sc st ts e := by
  have h := claimE_of (by omega) h
  exact ⟨h.1, fun rest hr => h.2 1 rest e rest (Nat.le_refl 1) hr.toCastEnds (stop_mono (by omega) hr.stop) (ops_none hr.stop)⟩

theorem claim_weaken {l : Nat} {st : Bool} {ts : List Token} {e : Expr} (h : Claim sc (l + 1) st ts e) : Claim sc l st ts e := by
  rcases Nat.lt_or_ge l 8 with hl | hl
  · have h := claimE_of (by omega) h
    unfold Claim
    rw [if_pos (by omega)]
    exact ⟨h.1, fun k rest e' r hk hr hs ho => h.2 k rest e' r (by omega) hr (stop_mono (by omega) hs) ho⟩
  · unfold Claim at h ⊢
    rw [if_neg (by omega), if_neg (by omega)] at h
    rw [if_neg (by omega)]
    rcases (by omega : l = 8 ∨ l = 9 ∨ l = 10 ∨ 11 ≤ l) with rfl | rfl | rfl | hl
    · exact claimC_of_U h
    · exact claimU_of_S h
    · exact claimS_of_A h
    · rw [if_neg (by omega), if_neg (by omega)] at h
      rw [if_neg (by omega), if_neg (by omega), if_neg (by omega)]
      exact h

theorem claim_bin {n l : Nat} {op : BinOp} {st : Bool} {ts us : List Token} {a b : Expr} (hn : binOp? n = some (l, op))
    (ha : Claim sc l st ts a) (hb : Claim sc (l + 1) st us b) : Claim sc l st (ts ++ .sym n :: us) (.bin op a b) := by
  have hl := binOp?_le hn
  have ha := claimE_of (by omega) ha
  have hb := claimE_of (by omega) hb
  unfold Claim
  rw [if_pos hl.2]
  refine ⟨ha.1.append _, fun k rest e' r hk hr hs ho => ?_⟩
  rw [List.append_assoc]
  refine ha.2 k _ e' r hk (castEnds_op hn) ?_ ?_
  · intro n' us' k' op' hu hk'
    cases hu
    rw [hn] at hk'
    cases hk'
    omega
  · exact ops_some hn hk (hb.2 (l + 1) rest b rest (Nat.le_refl _) hr (stop_mono (by omega) hs) (ops_none hs)) ho

theorem claim_cast {n : Nat} {t : IntTy} {st : Bool} {ts : List Token} {e : Expr} (hn : intTy? n = some t) (h : Claim sc 8 st ts e) :
    Claim sc 8 st (ts ++ [.word c!"as", .word n]) (.cast e t) := by
  change ClaimC sc st ts e at h
  refine (⟨h.1.append _, fun rest e' r hr hc => ?_⟩ : ClaimC sc st _ _)
  rw [List.append_assoc]
  refine h.2 _ e' r suffixEnds_as (hc.succ fun m hc => ?_)
  unfold casts
  refine ifAcceptWord_yes.trans ?_
  exact (thenIntTy_yes hn).trans hc

theorem claim_neg {st : Bool} {ts : List Token} {e : Expr} (h : Claim sc 9 st ts e) : Claim sc 9 st (.sym c!"-" :: ts) (.neg e) := by
  change ClaimU sc st ts e at h
  change ClaimU sc st (.sym c!"-" :: ts) (.neg e)
  refine ⟨begins_sym (by decide), fun rest hr => (h.2 rest hr).succ fun n hu => ?_⟩
  refine ifAccept_yes.trans ?_
  exact bind_eq hu

theorem claim_ref {st : Bool} {ts : List Token} {e : Expr} (h : Claim sc 9 st ts e) : Claim sc 9 st (.sym c!"&" :: ts) e := by
  change ClaimU sc st ts e at h
  change ClaimU sc st (.sym c!"&" :: ts) e
  refine ⟨begins_sym (by decide), fun rest hr => (h.2 rest hr).succ fun n hu => ?_⟩
  refine (ifAccept_no (notNext_sym (by decide))).trans ?_
  exact ifAccept_yes.trans hu

/-- A suffix after an expression. -/
theorem claimS_append {st : Bool} {ts us : List Token} {e x : Expr} (h : Claim sc 10 st ts e) (hu : ∀ rest, AtomEnds st (us ++ rest))
    (hs : ∀ rest e' r, (Ev fun n => (exprs sc n).suffix x rest = some (e', r)) → Ev fun n => (exprs sc n).suffix e (us ++ rest) = some (e', r)) :
    Claim sc 10 st (ts ++ us) x := by
  change ClaimS sc st ts e at h
  refine (⟨h.1.append _, fun rest e' r hr hx => ?_⟩ : ClaimS sc st _ _)
  rw [List.append_assoc]
  exact h.2 _ e' r (hu rest) (hs rest e' r hx)

theorem claim_index {st : Bool} {ts us : List Token} {e i : Expr} (h : Claim sc 10 st ts e) (hi : Claim sc 1 true us i) :
    Claim sc 10 st (ts ++ .sym c!"[" :: (us ++ [.sym c!"]"])) (.index e i) := by
  refine claimS_append h (fun rest => atomEnds_sym (by decide) (by decide) (by decide)) fun rest e' r hx => ?_
  have hi := whole_of hi
  refine ((hi.2 (.sym c!"]" :: rest) (ends_sym rfl)).and hx).succ fun n ⟨hi', hx⟩ => ?_
  simp only [List.cons_append, List.append_assoc, List.nil_append]
  refine ifAccept_yes.trans ?_
  refine (ifAccept_no (hi.1.notNext (by decide))).trans ?_
  refine (bind_eq hi').trans ?_
  refine (ifAccept_no (notNext_sym (by decide))).trans ?_
  exact thenExpect_yes.trans hx

theorem claim_prefix {st : Bool} {ts us : List Token} {e i : Expr} (h : Claim sc 10 st ts e) (hi : Claim sc 1 true us i) :
    Claim sc 10 st (ts ++ .sym c!"[" :: .sym c!".." :: (us ++ [.sym c!"]"])) (.prefix e i) := by
  refine claimS_append h (fun rest => atomEnds_sym (by decide) (by decide) (by decide)) fun rest e' r hx => ?_
  have hi := whole_of hi
  refine ((hi.2 (.sym c!"]" :: rest) (ends_sym rfl)).and hx).succ fun n ⟨hi', hx⟩ => ?_
  simp only [List.cons_append, List.append_assoc, List.nil_append]
  refine ifAccept_yes.trans ?_
  refine ifAccept_yes.trans ?_
  refine (bind_eq hi').trans ?_
  exact thenExpect_yes.trans hx

theorem claim_slice {st : Bool} {ts us vs : List Token} {e lo hi : Expr} (h : Claim sc 10 st ts e) (hlo : Claim sc 1 true us lo)
    (hhi : Claim sc 1 true vs hi) : Claim sc 10 st (ts ++ .sym c!"[" :: (us ++ .sym c!".." :: (vs ++ [.sym c!"]"]))) (.slice e lo hi) := by
  refine claimS_append h (fun rest => atomEnds_sym (by decide) (by decide) (by decide)) fun rest e' r hx => ?_
  have hlo := whole_of hlo
  have hhi := whole_of hhi
  refine (((hlo.2 (.sym c!".." :: (vs ++ .sym c!"]" :: rest)) (ends_sym rfl)).and (hhi.2 (.sym c!"]" :: rest) (ends_sym rfl))).and hx).succ
    fun n ⟨⟨hlo', hhi'⟩, hx⟩ => ?_
  simp only [List.cons_append, List.append_assoc, List.nil_append]
  refine ifAccept_yes.trans ?_
  refine (ifAccept_no (hlo.1.notNext (by decide))).trans ?_
  refine (bind_eq hlo').trans ?_
  refine ifAccept_yes.trans ?_
  refine (bind_eq hhi').trans ?_
  exact thenExpect_yes.trans hx

/-- A field is not followed by an opening parenthesis: that is a method. -/
theorem claim_field {n : Nat} {st : Bool} {ts : List Token} {e : Expr} (h : Claim sc 10 st ts e) :
    Claim sc 10 st (ts ++ [.sym c!".", .word n]) (.field e (decode n)) := by
  change ClaimS sc st ts e at h
  refine (⟨h.1.append _, fun rest e' r hr hx => ?_⟩ : ClaimS sc st _ _)
  rw [List.append_assoc]
  refine h.2 _ e' r (atomEnds_sym (by decide) (by decide) (by decide)) (hx.succ fun m hx => ?_)
  refine (ifAccept_no (notNext_sym (by decide))).trans ?_
  refine ifAccept_yes.trans ?_
  refine thenIdent_yes.trans ?_
  exact (ifAccept_no hr.paren).trans hx

theorem claim_method {n : Nat} {st : Bool} {ts us : List Token} {e : Expr} {as : List Expr} (h : Claim sc 10 st ts e)
    (has : ClaimArgs sc c!")" us as) : Claim sc 10 st (ts ++ .sym c!"." :: .word n :: .sym c!"(" :: us) (.method e (decode n) as) := by
  refine claimS_append h (fun rest => atomEnds_sym (by decide) (by decide) (by decide)) fun rest e' r hx => ?_
  refine ((has (.inl rfl) rest).and hx).succ fun m ⟨has, hx⟩ => ?_
  refine (ifAccept_no (notNext_sym (by decide))).trans ?_
  refine ifAccept_yes.trans ?_
  refine thenIdent_yes.trans ?_
  refine ifAccept_yes.trans ?_
  exact (bind_eq has).trans hx

theorem claim_num {n : Nat} {st : Bool} : Claim sc 11 st [.num n] (.lit n) :=
  (⟨⟨_, _, rfl, .inl ⟨_, rfl⟩⟩, fun _ _ => (Ev.of fun _ => trivial).succ fun _ _ => rfl⟩ : ClaimA sc st _ _)

theorem claim_paren {st : Bool} {ts : List Token} {e : Expr} (h : Claim sc 1 true ts e) :
    Claim sc 11 st (.sym c!"(" :: (ts ++ [.sym c!")"])) e := by
  have h := whole_of h
  change ClaimA sc st (.sym c!"(" :: (ts ++ [.sym c!")"])) e
  refine ⟨begins_sym (by decide), fun rest _ => (h.2 (.sym c!")" :: rest) (ends_sym rfl)).succ fun n he => ?_⟩
  simp only [List.cons_append, List.append_assoc, List.nil_append]
  exact (bind_eq he).trans thenExpect_yes

theorem claim_arrayOf {n : Nat} {st : Bool} {ts : List Token} {e : Expr} (h : Claim sc 1 true ts e) :
    Claim sc 11 st (.sym c!"[" :: (ts ++ [.sym c!";", .num n, .sym c!"]"])) (.arrayOf e n) := by
  have h := whole_of h
  change ClaimA sc st (.sym c!"[" :: (ts ++ [.sym c!";", .num n, .sym c!"]"])) (.arrayOf e n)
  refine ⟨begins_sym (by decide), fun rest _ => (h.2 (.sym c!";" :: .num n :: .sym c!"]" :: rest) (ends_sym rfl)).succ fun m he => ?_⟩
  simp only [List.cons_append, List.append_assoc, List.nil_append]
  refine (ifAccept_no (h.1.notNext (by decide))).trans ?_
  refine (bind_eq he).trans ?_
  refine ifAccept_yes.trans ?_
  refine thenNumeral_yes.trans ?_
  exact thenExpect_yes

theorem claim_vec {st : Bool} : Claim sc 11 st [.word c!"vec", .sym c!"!", .sym c!"[", .sym c!"]"] (.list []) := by
  refine (⟨⟨_, _, rfl, .inr (.inl ⟨_, rfl⟩)⟩, fun rest _ => (Ev.of fun _ => trivial).succ fun n _ => ?_⟩ : ClaimA sc st _ _)
  refine thenExpect_yes.trans ?_
  refine thenExpect_yes.trans ?_
  exact ifAccept_yes

theorem claim_vecOf {st : Bool} {ts us : List Token} {e k : Expr} (he : Claim sc 1 true ts e) (hk : Claim sc 1 true us k) :
    Claim sc 11 st (.word c!"vec" :: .sym c!"!" :: .sym c!"[" :: (ts ++ .sym c!";" :: (us ++ [.sym c!"]"]))) (.vecOf e k) := by
  have he := whole_of he
  have hk := whole_of hk
  refine (⟨⟨_, _, rfl, .inr (.inl ⟨_, rfl⟩)⟩, fun rest _ => ((he.2 (.sym c!";" :: (us ++ .sym c!"]" :: rest)) (ends_sym rfl)).and
    (hk.2 (.sym c!"]" :: rest) (ends_sym rfl))).succ fun n ⟨he', hk'⟩ => ?_⟩ : ClaimA sc st _ _)
  simp only [List.cons_append, List.append_assoc, List.nil_append]
  refine thenExpect_yes.trans ?_
  refine thenExpect_yes.trans ?_
  refine (ifAccept_no (he.1.notNext (by decide))).trans ?_
  refine (bind_eq he').trans ?_
  refine thenExpect_yes.trans ?_
  refine (bind_eq hk').trans ?_
  exact thenExpect_yes

/-- A word that is not `vec`. -/
theorem atom_word {r : Exprs} {fuel n : Nat} (hn : n ≠ c!"vec") {st : Bool} {ts : List Token} : (r.step sc fuel).atom st (.word n :: ts) =
    (do
      let path ← pathRest fuel
      if (← accept c!"(") then
        let as ← r.args c!")"
        pure (.call (resolve sc (n :: path)) as)
      else match path with
        | [] =>
          if st && (← isSym c!"{") then
            match lookup n sc.structs with
            | some decl =>
              expect c!"{"
              let inits ← r.fieldInits
              ensure (sameNames inits decl)
              pure (.struct (decodeFields decl) (values inits))
            | none => fail
          else if elem n sc.consts then pure (.const (resolve sc [n]))
          else pure (.var (decode n))
        | _ :: _ => fail : P Expr) ts := by
  change (bif Nat.beq n c!"vec" then _ else _ : P Expr) _ = _
  rw [beq_false hn]
  rfl

theorem claim_call {n : Nat} {path : List Nat} {st : Bool} {ts us : List Token} {as : List Expr} (hn : n ≠ c!"vec") (hp : IsPath ts path)
    (has : ClaimArgs sc c!")" us as) : Claim sc 11 st (.word n :: (ts ++ .sym c!"(" :: us)) (.call (resolve sc (n :: path)) as) := by
  refine (⟨⟨_, _, rfl, .inr (.inl ⟨_, rfl⟩)⟩, fun rest _ =>
    ((path_complete hp (rest := .sym c!"(" :: (us ++ rest)) (notNext_sym (by decide))).and (has (.inl rfl) rest)).succ fun m ⟨hp, has⟩ => ?_⟩ :
    ClaimA sc st _ _)
  simp only [List.cons_append, List.append_assoc]
  refine (atom_word hn).trans ?_
  refine (bind_eq hp).trans ?_
  refine ifAccept_yes.trans ?_
  exact bind_eq has

theorem isSym_no {s : Nat} {ts : List Token} (h : NotNext (.sym s) ts) : isSym s ts = some (false, ts) := by
  unfold isSym
  split
  · rename_i t rest
    rw [beq_false fun e => h rest (by rw [e])]
  · rfl

/-- A word that is not continued. -/
theorem claim_word {n : Nat} {st : Bool} (hn : n ≠ c!"vec") {e : Expr}
    (he : e = if elem n sc.consts = true then .const (resolve sc [n]) else .var (decode n)) : Claim sc 11 st [.word n] e := by
  refine (⟨⟨_, _, rfl, .inr (.inl ⟨_, rfl⟩)⟩, fun rest hr => (path_complete .nil hr.path).succ fun m hp => ?_⟩ : ClaimA sc st _ _)
  refine (atom_word hn).trans ?_
  refine (bind_eq hp).trans ?_
  refine (ifAccept_no hr.paren).trans ?_
  have hb : ∃ b, isSym c!"{" rest = some (b, rest) ∧ (st && b) = false := by
    cases st with
    | false =>
      unfold isSym
      split
      · exact ⟨_, rfl, rfl⟩
      · exact ⟨_, rfl, rfl⟩
    | true => exact ⟨false, isSym_no (hr.brace rfl), rfl⟩
  obtain ⟨b, hb, hb'⟩ := hb
  refine (bind_eq hb).trans ?_
  rw [hb', he]
  simp only [Bool.false_eq_true, if_false]
  split <;> rfl

theorem sameNames_of {inits : List (Nat × Expr)} : ∀ {decl : List (Nat × Ty)}, inits.map Prod.fst = decl.map Prod.fst →
    sameNames inits decl = true := by
  induction inits with
  | nil =>
    intro decl h
    cases decl with
    | nil => rfl
    | cons _ _ => cases h
  | cons x inits ih =>
    intro decl h
    cases decl with
    | nil => cases h
    | cons d decl =>
      simp only [List.map_cons, List.cons.injEq] at h
      simp only [sameNames, h.1, Nat.beq_refl, ih h.2, Bool.and_self]

theorem claim_struct {n : Nat} {decl : List (Nat × Ty)} {ts : List Token} {es : List Expr} (hn : n ≠ c!"vec")
    (hd : lookup n sc.structs = some decl) (h : ClaimInits sc ts (decl.map Prod.fst) es) :
    Claim sc 11 true (.word n :: .sym c!"{" :: ts) (.struct (decodeFields decl) es) := by
  refine (⟨⟨_, _, rfl, .inr (.inl ⟨_, rfl⟩)⟩, fun rest _ => ?_⟩ : ClaimA sc true _ _)
  obtain ⟨inits, h1, h2, h⟩ := h rest
  refine ((path_complete .nil (rest := .sym c!"{" :: (ts ++ rest)) (notNext_sym (by decide))).and h).succ fun m ⟨hp, h⟩ => ?_
  refine (atom_word hn).trans ?_
  refine (bind_eq hp).trans ?_
  refine (ifAccept_no (notNext_sym (by decide))).trans ?_
  refine (bind_eq (a := true) (us := .sym c!"{" :: (ts ++ rest)) rfl).trans ?_
  simp only [Bool.and_self, if_true]
  rw [hd]
  refine thenExpect_yes.trans ?_
  refine (bind_eq h).trans ?_
  refine (ensure_yes (sameNames_of h1)).trans ?_
  rw [values_eq, h2]
  rfl

theorem claimArgs_close {k : Nat} : ClaimArgs sc k [.sym k] [] := fun _ _ => (Ev.of fun _ => trivial).succ fun _ _ => ifAccept_yes

theorem close_ends {k : Nat} (hk : k = c!")" ∨ k = c!"]") : endSym true k = true ∧ k ∉ exprFirst ∧ k ≠ c!"," := by
  rcases hk with rfl | rfl <;> decide

theorem claimArgs_last {k : Nat} {ts : List Token} {e : Expr} (h : Claim sc 1 true ts e) : ClaimArgs sc k (ts ++ [.sym k]) [e] := by
  intro hk rest
  have h := whole_of h
  have hk := close_ends hk
  refine (h.2 (.sym k :: rest) (ends_sym hk.1)).succ fun n he => ?_
  simp only [List.append_assoc, List.cons_append, List.nil_append]
  refine (ifAccept_no (h.1.notNext hk.2.1)).trans ?_
  refine (bind_eq he).trans ?_
  refine (ifAccept_no (notNext_sym hk.2.2)).trans ?_
  exact thenExpect_yes

theorem claimArgs_cons {k : Nat} {ts us : List Token} {e : Expr} {es : List Expr} (h : Claim sc 1 true ts e) (hs : ClaimArgs sc k us es) :
    ClaimArgs sc k (ts ++ .sym c!"," :: us) (e :: es) := by
  intro hk rest
  have h := whole_of h
  refine ((h.2 (.sym c!"," :: (us ++ rest)) (ends_sym rfl)).and (hs hk rest)).succ fun n ⟨he, hs⟩ => ?_
  simp only [List.append_assoc, List.cons_append]
  refine (ifAccept_no (h.1.notNext (close_ends hk).2.1)).trans ?_
  refine (bind_eq he).trans ?_
  refine ifAccept_yes.trans ?_
  exact bind_eq hs

/-- Arguments, and what they mean in the brackets of an array. -/
def ClaimList (sc : Scope) (k : Nat) (ts : List Token) (es : List Expr) : Prop :=
  ClaimArgs sc k ts es ∧ (k = c!"]" → ∀ st, Claim sc 11 st (.sym c!"[" :: ts) (.list es))

theorem claimList_close {k : Nat} : ClaimList sc k [.sym k] [] := by
  refine ⟨claimArgs_close, fun hk st => ?_⟩
  subst hk
  change ClaimA sc st [.sym c!"[", .sym c!"]"] (.list [])
  exact ⟨begins_sym (by decide), fun rest _ => (Ev.of fun _ => trivial).succ fun _ _ => ifAccept_yes⟩

theorem claimList_last {k : Nat} {ts : List Token} {e : Expr} (h : Claim sc 1 true ts e) : ClaimList sc k (ts ++ [.sym k]) [e] := by
  refine ⟨claimArgs_last h, fun hk st => ?_⟩
  subst hk
  change ClaimA sc st (.sym c!"[" :: (ts ++ [.sym c!"]"])) (.list [e])
  refine ⟨begins_sym (by decide), fun rest _ => ?_⟩
  have h := whole_of h
  refine (h.2 (.sym c!"]" :: rest) (ends_sym rfl)).succ fun n he => ?_
  simp only [List.append_assoc, List.cons_append, List.nil_append]
  refine (ifAccept_no (h.1.notNext (by decide))).trans ?_
  refine (bind_eq he).trans ?_
  refine (ifAccept_no (notNext_sym (by decide))).trans ?_
  refine (ifAccept_no (notNext_sym (by decide))).trans ?_
  exact thenExpect_yes

theorem claimList_cons {k : Nat} {ts us : List Token} {e : Expr} {es : List Expr} (h : Claim sc 1 true ts e) (hs : ClaimList sc k us es) :
    ClaimList sc k (ts ++ .sym c!"," :: us) (e :: es) := by
  refine ⟨claimArgs_cons h hs.1, fun hk st => ?_⟩
  subst hk
  change ClaimA sc st (.sym c!"[" :: (ts ++ .sym c!"," :: us)) (.list (e :: es))
  refine ⟨begins_sym (by decide), fun rest _ => ?_⟩
  have h := whole_of h
  refine ((h.2 (.sym c!"," :: (us ++ rest)) (ends_sym rfl)).and (hs.1 (.inr rfl) rest)).succ fun n ⟨he, hs⟩ => ?_
  simp only [List.append_assoc, List.cons_append]
  refine (ifAccept_no (h.1.notNext (by decide))).trans ?_
  refine (bind_eq he).trans ?_
  refine (ifAccept_no (notNext_sym (by decide))).trans ?_
  refine ifAccept_yes.trans ?_
  exact bind_eq hs

theorem claimInits_close : ClaimInits sc [.sym c!"}"] [] [] :=
  fun _ => ⟨[], rfl, rfl, (Ev.of fun _ => trivial).succ fun _ _ => ifAccept_yes⟩

theorem claimInits_last {n : Nat} {ts : List Token} {e : Expr} (h : Claim sc 1 true ts e) :
    ClaimInits sc (.word n :: .sym c!":" :: (ts ++ [.sym c!"}"])) [n] [e] := by
  intro rest
  have h := whole_of h
  refine ⟨[(n, e)], rfl, rfl, (h.2 (.sym c!"}" :: rest) (ends_sym rfl)).succ fun m he => ?_⟩
  simp only [List.append_assoc, List.cons_append, List.nil_append]
  refine (ifAccept_no notNext_sym_word).trans ?_
  refine thenIdent_yes.trans ?_
  refine thenExpect_yes.trans ?_
  refine (bind_eq he).trans ?_
  refine (ifAccept_no (notNext_sym (by decide))).trans ?_
  exact thenExpect_yes

theorem claimInits_cons {n : Nat} {ns : List Nat} {ts us : List Token} {e : Expr} {es : List Expr} (h : Claim sc 1 true ts e)
    (hs : ClaimInits sc us ns es) : ClaimInits sc (.word n :: .sym c!":" :: (ts ++ .sym c!"," :: us)) (n :: ns) (e :: es) := by
  intro rest
  have h := whole_of h
  obtain ⟨inits, h1, h2, hs⟩ := hs rest
  refine ⟨(n, e) :: inits, by simp only [List.map_cons, h1], by simp only [List.map_cons, h2],
    ((h.2 (.sym c!"," :: (us ++ rest)) (ends_sym rfl)).and hs).succ fun m ⟨he, hs⟩ => ?_⟩
  simp only [List.append_assoc, List.cons_append]
  refine (ifAccept_no notNext_sym_word).trans ?_
  refine thenIdent_yes.trans ?_
  refine thenExpect_yes.trans ?_
  refine (bind_eq he).trans ?_
  refine ifAccept_yes.trans ?_
  exact bind_eq hs

theorem claim {l : Nat} {st : Bool} {ts : List Token} {e : Expr} (h : IsExpr sc l st ts e) : Claim sc l st ts e := by
  exact IsExpr.rec (motive_1 := fun l st ts e _ => Claim sc l st ts e) (motive_2 := fun k ts es _ => ClaimList sc k ts es)
    (motive_3 := fun ts ns es _ => ClaimInits sc ts ns es)
    (fun _ h => claim_weaken h)
    (fun hn _ _ ha hb => claim_bin hn ha hb)
    (fun hn _ h => claim_cast hn h)
    (fun _ h => claim_neg h)
    (fun _ h => claim_ref h)
    (fun _ _ h hi => claim_index h hi)
    (fun _ _ h hi => claim_prefix h hi)
    (fun _ _ _ h hlo hhi => claim_slice h hlo hhi)
    (fun _ h => claim_field h)
    (fun _ _ h has => claim_method h has.1)
    claim_num
    (fun _ h => claim_paren h)
    (fun _ h => h.2 rfl _)
    (fun _ h => claim_arrayOf h)
    claim_vec
    (fun _ _ he hk => claim_vecOf he hk)
    (fun hn hp _ has => claim_call hn hp has.1)
    (fun hn hd _ h => claim_struct hn hd h)
    (fun hn hc => claim_word hn (by rw [if_pos hc]))
    (fun hn hc => claim_word hn (by rw [hc]; rfl))
    claimList_close
    (fun _ h => claimList_last h)
    (fun _ _ h hs => claimList_cons h hs)
    claimInits_close
    (fun _ h => claimInits_last h)
    (fun _ _ h hs => claimInits_cons h hs)
    h

theorem whole {st : Bool} {ts : List Token} {e : Expr} (h : IsExpr sc 1 st ts e) : Whole sc st ts e := whole_of (claim h)

end Proofs.Grammar

import Verif.Proofs.GrammarUnique

/-!
# The grammar is unambiguous: blocks and files

If a sequence of tokens is a block or a file by the rules of `Source.Grammar`, the parser yields what it stands for, given enough fuel.
-/

namespace Proofs.Grammar
open Source Source.Parser Source.Grammar

variable {sc : Scope}

/-! ## Blocks -/

/-- The statement holds from some pair of numbers on. -/
def Ev2 (φ : Nat → Nat → Prop) : Prop := ∃ N, ∀ d f, N ≤ d → N ≤ f → φ d f

namespace Ev2

theorem of {φ : Nat → Nat → Prop} (h : ∀ d f, φ d f) : Ev2 φ := ⟨0, fun d f _ _ => h d f⟩

theorem fst {φ : Nat → Prop} (h : Ev φ) : Ev2 fun d _ => φ d := by
  obtain ⟨N, h⟩ := h
  exact ⟨N, fun d _ hd _ => h d hd⟩

theorem snd {φ : Nat → Prop} (h : Ev φ) : Ev2 fun _ f => φ f := by
  obtain ⟨N, h⟩ := h
  exact ⟨N, fun _ f _ hf => h f hf⟩

theorem and {φ ψ : Nat → Nat → Prop} (h : Ev2 φ) (h' : Ev2 ψ) : Ev2 fun d f => φ d f ∧ ψ d f := by
  obtain ⟨N, h⟩ := h
  obtain ⟨N', h'⟩ := h'
  exact ⟨max N N', fun d f hd hf => ⟨h d f (by omega) (by omega), h' d f (by omega) (by omega)⟩⟩

theorem succ {φ ψ : Nat → Nat → Prop} (h : Ev2 φ) (h' : ∀ d f, φ d f → ψ d (f + 1)) : Ev2 ψ := by
  obtain ⟨N, h⟩ := h
  refine ⟨N + 1, fun d f hd hf => ?_⟩
  obtain ⟨m, rfl⟩ : ∃ m, f = m + 1 := ⟨f - 1, by omega⟩
  exact h' d m (h d m (by omega) (by omega))

end Ev2

/-- The expression, for the parser of blocks. -/
theorem whole2 {st : Bool} {ts : List Token} {e : Expr} (h : IsExpr sc 1 st ts e) {rest : List Token} (hr : Ends st rest) :
    Ev2 fun d _ => Parser.expr sc d st (ts ++ rest) = some (e, rest) := Ev2.fst ((whole h).2 rest hr)

/-- The sequence begins with a token other than `else`. -/
def NoElse (ts : List Token) : Prop := ∃ t us, ts = t :: us ∧ t ≠ .word c!"else"

theorem NoElse.notNext {ts rest : List Token} (h : NoElse ts) : NotNext (.word c!"else") (ts ++ rest) := by
  obtain ⟨t, us, rfl, h⟩ := h
  intro vs hv
  cases hv
  exact h rfl

theorem NoElse.append {ts : List Token} (h : NoElse ts) (us : List Token) : NoElse (ts ++ us) := by
  obtain ⟨t, vs, rfl, h⟩ := h
  exact ⟨t, vs ++ us, rfl, h⟩

theorem notKeyword {ts : List Token} (h : NoKeyword ts) (hb : Begins exprFirst ts) {w : Nat} (hw : w ∈ keywords) {rest : List Token} :
    NotNext (.word w) (ts ++ rest) := by
  obtain ⟨t, us, rfl, _⟩ := hb
  intro vs hv
  cases hv
  exact h w us rfl hw

theorem noElse_expr {ts : List Token} (h : NoKeyword ts) (hb : Begins exprFirst ts) : NoElse ts := by
  obtain ⟨t, us, rfl, _⟩ := hb
  exact ⟨t, us, rfl, fun e => h _ us (by rw [e]) (by decide)⟩

/-- What the parser does with a statement. -/
def ClaimStmt (sc : Scope) (ts : List Token) (s : Stmt) : Prop :=
  NoElse ts ∧ ∀ rest acc x r, NotNext (.word c!"else") rest → (Ev2 fun d f => block sc d f (s :: acc) rest = some (x, r)) →
    Ev2 fun d f => block sc d f acc (ts ++ rest) = some (x, r)

/-- What it does with a block. -/
def ClaimBlock (sc : Scope) (ts : List Token) (ss : List Stmt) (e : Option Expr) : Prop :=
  NoElse ts ∧ ∀ rest acc, Ev2 fun d f => block sc d f acc (ts ++ rest) = some ((acc.reverse ++ ss, e), rest)

/-- A block without a value. -/
theorem ClaimBlock.noValue {ts : List Token} {ss : List Stmt} (h : ClaimBlock sc ts ss none) (rest : List Token) :
    Ev2 fun d f => Parser.noValue (block sc d f []) (ts ++ rest) = some (ss, rest) := by
  obtain ⟨N, h⟩ := h.2 rest []
  refine ⟨N, fun d f hd hf => ?_⟩
  have h := h d f hd hf
  change (match block sc d f [] (ts ++ rest) with
    | some ((ss, none), rest) => some (ss, rest)
    | _ => none) = _
  rw [show block sc d f [] (ts ++ rest) = some ((ss, none), rest) from h]

/-- A statement or value that begins with an expression. -/
theorem block_expr {d f : Nat} {acc : List Stmt} {ts : List Token} {e : Expr} (hk : NoKeyword ts) (he : IsExpr sc 1 true ts e) {rest : List Token}
    (h : Parser.expr sc d true (ts ++ rest) = some (e, rest)) : block sc d (f + 1) acc (ts ++ rest) = (do
      if (← accept c!"=") then
        let r ← Parser.expr sc d true
        expect c!";"
        block sc d f (.assign e r :: acc)
      else match (← acceptAssignOp) with
        | some op =>
          let r ← Parser.expr sc d true
          expect c!";"
          block sc d f (.assignOp op e r :: acc)
        | none =>
          if (← accept c!"}") then pure (reverse acc [], some e)
          else
            expect c!";"
            match e with
            | .method r m as =>
              block sc d f (.mutate r m as :: acc)
            | _ => fail : P (List Stmt × Option Expr)) rest := by
  have hb := (whole he).1
  rw [block]
  refine (ifAccept_no (hb.notNext (by decide))).trans ?_
  refine (ifAccept_no (hb.notNext (by decide))).trans ?_
  refine (ifAcceptWord_no (notKeyword hk hb (by decide))).trans ?_
  refine (ifAcceptWord_no (notKeyword hk hb (by decide))).trans ?_
  refine (ifAcceptWord_no (notKeyword hk hb (by decide))).trans ?_
  refine (ifAcceptWord_no (notKeyword hk hb (by decide))).trans ?_
  refine (ifAcceptWord_no (notKeyword hk hb (by decide))).trans ?_
  refine (ifAcceptWord_no (notKeyword hk hb (by decide))).trans ?_
  refine (ifAcceptWord_no (notKeyword hk hb (by decide))).trans ?_
  refine (bind_eq h).trans ?_
  rfl

theorem acceptAssignOp_yes {s : Nat} {op : BinOp} (h : assignOp? s = some op) {ts : List Token} :
    acceptAssignOp (.sym s :: ts) = some (some op, ts) := by
  simp only [acceptAssignOp, h]

theorem acceptAssignOp_no {s : Nat} (h : assignOp? s = none) {ts : List Token} : acceptAssignOp (.sym s :: ts) = some (none, .sym s :: ts) := by
  simp only [acceptAssignOp, h]

theorem assignOp_cases {s : Nat} {op : BinOp} (h : assignOp? s = some op) : s = c!"+=" ∨ s = c!"*=" ∨ s = c!"^=" := by
  unfold assignOp? at h
  cases h1 : Nat.beq s c!"+="
  · cases h2 : Nat.beq s c!"*="
    · cases h3 : Nat.beq s c!"^="
      · rw [h1, h2, h3] at h
        cases h
      · exact .inr (.inr (beq_true h3))
    · exact .inr (.inl (beq_true h2))
  · exact .inl (beq_true h1)

theorem stmt_assign {ts us : List Token} {a b : Expr} (hk : NoKeyword ts) (ha : IsExpr sc 1 true ts a) (hb : IsExpr sc 1 true us b) :
    ClaimStmt sc (ts ++ .sym c!"=" :: (us ++ [.sym c!";"])) (.assign a b) := by
  refine ⟨(noElse_expr hk (whole ha).1).append _, fun rest acc x r _ h => ?_⟩
  simp only [List.append_assoc, List.cons_append, List.nil_append]
  refine (((whole2 ha (rest := .sym c!"=" :: (us ++ .sym c!";" :: rest)) (ends_sym rfl)).and
    (whole2 hb (rest := .sym c!";" :: rest) (ends_sym rfl))).and h).succ fun d f ⟨⟨ha', hb'⟩, h⟩ => ?_
  refine (block_expr hk ha ha').trans ?_
  refine ifAccept_yes.trans ?_
  refine (bind_eq hb').trans ?_
  exact thenExpect_yes.trans h

theorem stmt_assignOp {n : Nat} {op : BinOp} {ts us : List Token} {a b : Expr} (hn : assignOp? n = some op) (hk : NoKeyword ts)
    (ha : IsExpr sc 1 true ts a) (hb : IsExpr sc 1 true us b) : ClaimStmt sc (ts ++ .sym n :: (us ++ [.sym c!";"])) (.assignOp op a b) := by
  refine ⟨(noElse_expr hk (whole ha).1).append _, fun rest acc x r _ h => ?_⟩
  simp only [List.append_assoc, List.cons_append, List.nil_append]
  have he : endSym true n = true ∧ n ≠ c!"=" := by rcases assignOp_cases hn with rfl | rfl | rfl <;> decide
  refine (((whole2 ha (rest := .sym n :: (us ++ .sym c!";" :: rest)) (ends_sym he.1)).and
    (whole2 hb (rest := .sym c!";" :: rest) (ends_sym rfl))).and h).succ fun d f ⟨⟨ha', hb'⟩, h⟩ => ?_
  refine (block_expr hk ha ha').trans ?_
  refine (ifAccept_no (notNext_sym he.2)).trans ?_
  refine (bind_eq (acceptAssignOp_yes hn)).trans ?_
  refine (bind_eq hb').trans ?_
  exact thenExpect_yes.trans h

theorem stmt_mutate {ts : List Token} {a : Expr} {m : String} {as : List Expr} (hk : NoKeyword ts) (ha : IsExpr sc 1 true ts (.method a m as)) :
    ClaimStmt sc (ts ++ [.sym c!";"]) (.mutate a m as) := by
  refine ⟨(noElse_expr hk (whole ha).1).append _, fun rest acc x r _ h => ?_⟩
  simp only [List.append_assoc, List.cons_append, List.nil_append]
  refine ((whole2 ha (rest := .sym c!";" :: rest) (ends_sym rfl)).and h).succ fun d f ⟨ha', h⟩ => ?_
  refine (block_expr hk ha ha').trans ?_
  refine (ifAccept_no (notNext_sym (by decide))).trans ?_
  refine (bind_eq (acceptAssignOp_no rfl)).trans ?_
  refine (ifAccept_no (notNext_sym (by decide))).trans ?_
  exact thenExpect_yes.trans h

theorem block_value {ts : List Token} {e : Expr} (hk : NoKeyword ts) (he : IsExpr sc 1 true ts e) :
    ClaimBlock sc (ts ++ [.sym c!"}"]) [] (some e) := by
  refine ⟨(noElse_expr hk (whole he).1).append _, fun rest acc => ?_⟩
  simp only [List.append_assoc, List.cons_append, List.nil_append]
  refine (whole2 he (rest := .sym c!"}" :: rest) (ends_sym rfl)).succ fun d f he' => ?_
  refine (block_expr hk he he').trans ?_
  refine (ifAccept_no (notNext_sym (by decide))).trans ?_
  refine (bind_eq (acceptAssignOp_no rfl)).trans ?_
  refine ifAccept_yes.trans ?_
  rw [reverse_eq]
  rfl

theorem block_close : ClaimBlock sc [.sym c!"}"] [] none := by
  refine ⟨⟨_, _, rfl, by intro h; cases h⟩, fun rest acc => (Ev2.of fun _ _ => trivial).succ fun d f _ => ?_⟩
  unfold block
  refine ifAccept_yes.trans ?_
  rw [reverse_eq]
  rfl

theorem block_empty {ts : List Token} {ss : List Stmt} {e : Option Expr} (h : ClaimBlock sc ts ss e) : ClaimBlock sc (.sym c!";" :: ts) ss e := by
  refine ⟨⟨_, _, rfl, by intro h; cases h⟩, fun rest acc => (h.2 rest acc).succ fun d f h => ?_⟩
  rw [block]
  refine (ifAccept_no (notNext_sym (by decide))).trans ?_
  exact ifAccept_yes.trans h

theorem block_cons {ts us : List Token} {s : Stmt} {ss : List Stmt} {e : Option Expr} (hs : ClaimStmt sc ts s) (h : ClaimBlock sc us ss e) :
    ClaimBlock sc (ts ++ us) (s :: ss) e := by
  refine ⟨hs.1.append _, fun rest acc => ?_⟩
  rw [List.append_assoc]
  refine hs.2 _ acc _ _ h.1.notNext ?_
  have := h.2 rest (s :: acc)
  rwa [List.reverse_cons, List.append_assoc] at this

/-- The beginning of a block that begins with a word. -/
local macro "not_symbols" : tactic =>
  `(tactic| (refine (ifAccept_no notNext_sym_word).trans ?_; refine (ifAccept_no notNext_sym_word).trans ?_))

local macro "not_word" : tactic => `(tactic| refine (ifAcceptWord_no (notNext_word (by decide))).trans ?_)

theorem stmt_letSnd {n : Nat} {ms ts : List Token} {e : Expr} (hm : IsName ms n) (he : IsExpr sc 1 true ts e) :
    ClaimStmt sc (.word c!"let" :: .sym c!"(" :: .word c!"_" :: .sym c!"," :: (ms ++ .sym c!")" :: .sym c!"=" :: (ts ++ [.sym c!";"])))
      (.letSnd (decode n) e) := by
  refine ⟨⟨_, _, rfl, by simp only [ne_eq, Token.word.injEq]; decide⟩, fun rest acc x r _ h => ?_⟩
  simp only [List.append_assoc, List.cons_append, List.nil_append]
  refine ((whole2 he (rest := .sym c!";" :: rest) (ends_sym rfl)).and h).succ fun d f ⟨he', h⟩ => ?_
  rw [block]
  not_symbols
  refine ifAcceptWord_yes.trans ?_
  refine ifAccept_yes.trans ?_
  refine thenIdent_yes.trans ?_
  refine (ensure_yes rfl).trans ?_
  refine thenExpect_yes.trans ?_
  refine (thenName_yes hm).trans ?_
  refine thenExpect_yes.trans ?_
  refine thenExpect_yes.trans ?_
  refine (bind_eq he').trans ?_
  exact thenExpect_yes.trans h

theorem notNext_name {ms : List Token} {n s : Nat} (h : IsName ms n) {rest : List Token} : NotNext (.sym s) (ms ++ rest) := by
  cases h <;> exact notNext_sym_word

theorem stmt_letTyped {n : Nat} {ms ts us : List Token} {t : Ty} {e : Expr} (hm : IsName ms n) (ht : IsTy ts t) (he : IsExpr sc 1 true us e) :
    ClaimStmt sc (.word c!"let" :: (ms ++ .sym c!":" :: (ts ++ .sym c!"=" :: (us ++ [.sym c!";"])))) (.letVar (decode n) (some t) e) := by
  refine ⟨⟨_, _, rfl, by simp only [ne_eq, Token.word.injEq]; decide⟩, fun rest acc x r _ h => ?_⟩
  simp only [List.append_assoc, List.cons_append, List.nil_append]
  refine ((whole2 he (rest := .sym c!";" :: rest) (ends_sym rfl)).and h).succ fun d f ⟨he', h⟩ => ?_
  rw [block]
  not_symbols
  refine ifAcceptWord_yes.trans ?_
  refine (ifAccept_no (notNext_name hm)).trans ?_
  refine (thenName_yes hm).trans ?_
  refine ifAccept_yes.trans ?_
  refine (thenTy_yes ht).trans ?_
  refine thenExpect_yes.trans ?_
  refine (bind_eq he').trans ?_
  exact thenExpect_yes.trans h

theorem stmt_letVar {n : Nat} {ms ts : List Token} {e : Expr} (hm : IsName ms n) (he : IsExpr sc 1 true ts e) :
    ClaimStmt sc (.word c!"let" :: (ms ++ .sym c!"=" :: (ts ++ [.sym c!";"]))) (.letVar (decode n) (inferredTy sc.fn n sc.inferred) e) := by
  refine ⟨⟨_, _, rfl, by simp only [ne_eq, Token.word.injEq]; decide⟩, fun rest acc x r _ h => ?_⟩
  simp only [List.append_assoc, List.cons_append, List.nil_append]
  refine ((whole2 he (rest := .sym c!";" :: rest) (ends_sym rfl)).and h).succ fun d f ⟨he', h⟩ => ?_
  rw [block]
  not_symbols
  refine ifAcceptWord_yes.trans ?_
  refine (ifAccept_no (notNext_name hm)).trans ?_
  refine (thenName_yes hm).trans ?_
  refine (ifAccept_no (notNext_sym (by decide))).trans ?_
  refine thenExpect_yes.trans ?_
  refine (bind_eq he').trans ?_
  exact thenExpect_yes.trans h

theorem stmt_ifThen {ts us : List Token} {c : Expr} {ss : List Stmt} (hc : IsExpr sc 1 false ts c) (hb : ClaimBlock sc us ss none) :
    ClaimStmt sc (.word c!"if" :: (ts ++ .sym c!"{" :: us)) (.ifElse c ss []) := by
  refine ⟨⟨_, _, rfl, by simp only [ne_eq, Token.word.injEq]; decide⟩, fun rest acc x r hr h => ?_⟩
  simp only [List.append_assoc, List.cons_append]
  refine (((whole2 hc (rest := .sym c!"{" :: (us ++ rest)) (ends_sym rfl)).and (hb.noValue rest)).and h).succ fun d f ⟨⟨hc', hb'⟩, h⟩ => ?_
  rw [block]
  not_symbols
  not_word
  refine ifAcceptWord_yes.trans ?_
  refine (bind_eq hc').trans ?_
  refine thenExpect_yes.trans ?_
  refine (bind_eq hb').trans ?_
  exact (ifAcceptWord_no hr).trans h

theorem stmt_ifElse {ts us vs : List Token} {c : Expr} {ss ss' : List Stmt} (hc : IsExpr sc 1 false ts c) (hb : ClaimBlock sc us ss none)
    (hb' : ClaimBlock sc vs ss' none) :
    ClaimStmt sc (.word c!"if" :: (ts ++ .sym c!"{" :: (us ++ .word c!"else" :: .sym c!"{" :: vs))) (.ifElse c ss ss') := by
  refine ⟨⟨_, _, rfl, by simp only [ne_eq, Token.word.injEq]; decide⟩, fun rest acc x r hr h => ?_⟩
  simp only [List.append_assoc, List.cons_append]
  refine ((((whole2 hc (rest := .sym c!"{" :: (us ++ .word c!"else" :: .sym c!"{" :: (vs ++ rest))) (ends_sym rfl)).and
    (hb.noValue (.word c!"else" :: .sym c!"{" :: (vs ++ rest)))).and (hb'.noValue rest)).and h).succ fun d f ⟨⟨⟨hc', hb⟩, hb'⟩, h⟩ => ?_
  rw [block]
  not_symbols
  not_word
  refine ifAcceptWord_yes.trans ?_
  refine (bind_eq hc').trans ?_
  refine thenExpect_yes.trans ?_
  refine (bind_eq hb).trans ?_
  refine ifAcceptWord_yes.trans ?_
  refine thenExpect_yes.trans ?_
  exact (bind_eq hb').trans h

theorem range_yes {r : Nat} {incl : Bool} (h : IsRange r incl) {ts : List Token} : range (.sym r :: ts) = some (incl, ts) := by
  unfold range
  cases h with
  | incl => exact ifAccept_yes
  | excl => exact (ifAccept_no (notNext_sym (by decide))).trans thenExpect_yes

theorem stmt_forIn {n k : Nat} {incl : Bool} {ts us vs : List Token} {lo hi : Expr} {ss : List Stmt} (hlo : IsExpr sc 1 false ts lo)
    (hk : IsRange k incl) (hhi : IsExpr sc 1 false us hi) (hb : ClaimBlock sc vs ss none) :
    ClaimStmt sc (.word c!"for" :: .word n :: .word c!"in" :: (ts ++ .sym k :: (us ++ .sym c!"{" :: vs))) (.forIn (decode n) lo hi incl ss) := by
  refine ⟨⟨_, _, rfl, by simp only [ne_eq, Token.word.injEq]; decide⟩, fun rest acc x r hr h => ?_⟩
  simp only [List.append_assoc, List.cons_append]
  have hk' : endSym false k = true := by cases hk <;> rfl
  refine ((((whole2 hlo (rest := .sym k :: (us ++ .sym c!"{" :: (vs ++ rest))) (ends_sym hk')).and
    (whole2 hhi (rest := .sym c!"{" :: (vs ++ rest)) (ends_sym rfl))).and (hb.noValue rest)).and h).succ fun d f ⟨⟨⟨hlo, hhi⟩, hb⟩, h⟩ => ?_
  rw [block]
  not_symbols
  not_word
  not_word
  refine ifAcceptWord_yes.trans ?_
  refine thenIdent_yes.trans ?_
  refine (bind_eq acceptWord_yes).trans ?_
  refine (ensure_yes rfl).trans ?_
  refine (bind_eq hlo).trans ?_
  refine (bind_eq (range_yes hk)).trans ?_
  refine (bind_eq hhi).trans ?_
  refine thenExpect_yes.trans ?_
  exact (bind_eq hb).trans h

theorem stmt_loop {ts : List Token} {ss : List Stmt} (hb : ClaimBlock sc ts ss none) :
    ClaimStmt sc (.word c!"loop" :: .sym c!"{" :: ts) (.loop ss) := by
  refine ⟨⟨_, _, rfl, by simp only [ne_eq, Token.word.injEq]; decide⟩, fun rest acc x r hr h => ?_⟩
  refine ((hb.noValue rest).and h).succ fun d f ⟨hb, h⟩ => ?_
  rw [block]
  not_symbols
  not_word
  not_word
  not_word
  refine ifAcceptWord_yes.trans ?_
  refine thenExpect_yes.trans ?_
  exact (bind_eq hb).trans h

theorem stmt_break : ClaimStmt sc [.word c!"break", .sym c!";"] .break := by
  refine ⟨⟨_, _, rfl, by simp only [ne_eq, Token.word.injEq]; decide⟩, fun rest acc x r hr h => h.succ fun d f h => ?_⟩
  rw [block]
  not_symbols
  not_word
  not_word
  not_word
  not_word
  refine ifAcceptWord_yes.trans ?_
  exact thenExpect_yes.trans h

theorem stmt_panic : ClaimStmt sc [.word c!"panic", .sym c!"!", .sym c!"(", .sym c!")"] .panic := by
  refine ⟨⟨_, _, rfl, by simp only [ne_eq, Token.word.injEq]; decide⟩, fun rest acc x r hr h => h.succ fun d f h => ?_⟩
  rw [block]
  not_symbols
  not_word
  not_word
  not_word
  not_word
  not_word
  refine ifAcceptWord_yes.trans ?_
  refine thenExpect_yes.trans ?_
  refine thenExpect_yes.trans ?_
  exact thenExpect_yes.trans h

theorem claimBlock {ts : List Token} {ss : List Stmt} {e : Option Expr} (h : IsBlock sc ts ss e) : ClaimBlock sc ts ss e :=
  IsBlock.rec (motive_1 := fun ts s _ => ClaimStmt sc ts s) (motive_2 := fun ts ss e _ => ClaimBlock sc ts ss e)
    (fun hm he => stmt_letSnd hm he) (fun hm ht he => stmt_letTyped hm ht he) (fun hm he => stmt_letVar hm he)
    (fun hc _ hb => stmt_ifThen hc hb) (fun hc _ _ hb hb' => stmt_ifElse hc hb hb') (fun hlo hk hhi _ hb => stmt_forIn hlo hk hhi hb)
    (fun _ hb => stmt_loop hb) stmt_break stmt_panic (fun hk ha hb => stmt_assign hk ha hb) (fun hn hk ha hb => stmt_assignOp hn hk ha hb)
    (fun hk ha => stmt_mutate hk ha) block_close (fun hk he => block_value hk he) (fun _ h => block_empty h) (fun _ _ hs h => block_cons hs h) h

/-! ## Items -/

theorem decls_complete {k : Nat} (hk : k ≠ c!",") {ts : List Token} {ds : List (Nat × Ty)} (h : IsDecls k ts ds) (rest : List Token) :
    Ev fun n => decls k n (ts ++ rest) = some (ds, rest) := by
  induction h with
  | close =>
    refine (Ev.of fun _ => trivial).succ fun n _ => ?_
    unfold decls
    exact ifAccept_yes
  | last hm ht =>
    refine (Ev.of fun _ => trivial).succ fun n _ => ?_
    simp only [List.append_assoc, List.cons_append, List.nil_append]
    unfold decls
    refine (ifAccept_no (notNext_name hm)).trans ?_
    refine (thenName_yes hm).trans ?_
    refine thenExpect_yes.trans ?_
    refine (thenTy_yes ht).trans ?_
    refine (ifAccept_no (notNext_sym hk)).trans ?_
    exact thenExpect_yes
  | cons hm ht _ ih =>
    refine ih.succ fun n h => ?_
    simp only [List.append_assoc, List.cons_append]
    unfold decls
    refine (ifAccept_no (notNext_name hm)).trans ?_
    refine (thenName_yes hm).trans ?_
    refine thenExpect_yes.trans ?_
    refine (thenTy_yes ht).trans ?_
    refine ifAccept_yes.trans ?_
    exact bind_eq h

theorem skipTo_complete {x : Nat} {ts : List Token} (h : .sym x ∉ ts) (rest : List Token) : skipTo x (ts ++ .sym x :: rest) = some ((), rest) := by
  induction ts with
  | nil => simp only [List.nil_append, skipTo, Nat.beq_refl, cond_true]
  | cons t ts ih =>
    simp only [List.mem_cons, not_or] at h
    have ih := ih h.2
    cases t with
    | sym s =>
      have : Nat.beq s x = false := beq_false fun e => h.1 (by rw [e])
      simp only [List.cons_append, skipTo, this, cond_false, ih]
    | _ => exact ih

theorem skipBraces_complete {ts : List Token} (h : Balanced ts) : ∀ (n : Nat) (rest : List Token), skipBraces n (ts ++ rest) = skipBraces n rest := by
  induction h with
  | nil => intro _ _; rfl
  | @token t ts h1 h2 _ ih =>
    intro n rest
    cases t with
    | sym s =>
      have e1 : Nat.beq s c!"{" = false := beq_false fun e => h1 (by rw [e])
      have e2 : Nat.beq s c!"}" = false := beq_false fun e => h2 (by rw [e])
      simp only [List.cons_append, skipBraces, e1, e2, cond_false]
      exact ih n rest
    | _ => exact ih n rest
  | @group ts us _ _ ih ih' =>
    intro n rest
    rw [List.cons_append, List.append_assoc, List.cons_append]
    change skipBraces (n + 1) (ts ++ .sym c!"}" :: (us ++ rest)) = _
    rw [ih]
    exact ih' n rest

local macro "item_start" : tactic =>
  `(tactic| (try simp only [List.nil_append, List.cons_append]; rw [items]; refine (ifAccept_no notNext_sym_word).trans ?_;
             first
             | refine (bind_eq acceptWord_yes).trans ?_
             | refine (bind_eq (acceptWord_no (notNext_word (by decide)))).trans ?_))

theorem items_complete {test : Bool} {ts : List Token} {fns : List Fn} (h : IsItems sc test ts fns) :
    Ev2 fun d f => items d f sc test ts = some (fns, []) := by
  induction h with
  | nil => exact (Ev2.of fun _ _ => trivial).succ fun d f _ => rfl
  | «attribute» hn _ ih =>
    refine ih.succ fun d f ih => ?_
    rw [items]
    refine ifAccept_yes.trans ?_
    refine thenExpect_yes.trans ?_
    refine thenIdent_yes.trans ?_
    exact (bind_eq (skipTo_complete hn _)).trans ih
  | @useAs _ _ n m path ts us _ hpath _ ih =>
    refine ((Ev2.snd (path_complete hpath (rest := .word c!"as" :: .word m :: .sym c!";" :: us) notNext_sym_word)).and ih).succ fun d f ⟨h, ih⟩ => ?_
    item_start
    refine ifAcceptWord_yes.trans ?_
    refine (ensure_yes rfl).trans ?_
    refine thenIdent_yes.trans ?_
    refine (bind_eq h).trans ?_
    refine ifAcceptWord_yes.trans ?_
    refine thenIdent_yes.trans ?_
    exact thenExpect_yes.trans ih
  | @use _ _ n path ts us _ hpath _ ih =>
    refine ((Ev2.snd (path_complete hpath (rest := .sym c!";" :: us) (notNext_sym (by decide)))).and ih).succ fun d f ⟨h, ih⟩ => ?_
    item_start
    refine ifAcceptWord_yes.trans ?_
    refine (ensure_yes rfl).trans ?_
    refine thenIdent_yes.trans ?_
    refine (bind_eq h).trans ?_
    refine (ifAcceptWord_no notNext_word_sym).trans ?_
    refine thenExpect_yes.trans ?_
    by_cases hn : n = c!"crate"
    · rw [if_pos hn] at ih
      rw [hn] at ih ⊢
      exact ih
    · rw [if_neg hn] at ih
      rw [show Nat.beq n c!"crate" = false from beq_false hn]
      exact ih
  | @const _ _ _ n ps ts us vs _ _ _ hp ht he _ ih =>
    refine ((whole2 he (rest := .sym c!";" :: vs) (ends_sym rfl)).and ih).succ fun d f ⟨h, ih⟩ => ?_
    cases hp
    all_goals
      item_start
      refine (ifAcceptWord_no (notNext_word (by decide))).trans ?_
      refine ifAcceptWord_yes.trans ?_
      refine thenIdent_yes.trans ?_
      refine thenExpect_yes.trans ?_
      refine (thenTy_yes ht).trans ?_
      refine thenExpect_yes.trans ?_
      refine (bind_eq h).trans ?_
      refine thenExpect_yes.trans ?_
      exact bind_eq ih
  | @struct _ _ _ n ps ts us _ _ hp hd _ ih =>
    refine ((Ev2.snd (decls_complete (by decide) hd us)).and ih).succ fun d f ⟨h, ih⟩ => ?_
    cases hp
    all_goals
      item_start
      refine (ifAcceptWord_no (notNext_word (by decide))).trans ?_
      refine (ifAcceptWord_no (notNext_word (by decide))).trans ?_
      refine ifAcceptWord_yes.trans ?_
      refine thenIdent_yes.trans ?_
      refine thenExpect_yes.trans ?_
      exact (bind_eq h).trans ih
  | @test _ _ n ps ts us vs _ hp hn hb _ ih =>
    refine ih.succ fun d f ih => ?_
    cases hp
    all_goals
      item_start
      refine (ifAcceptWord_no (notNext_word (by decide))).trans ?_
      refine (ifAcceptWord_no (notNext_word (by decide))).trans ?_
      refine (ifAcceptWord_no (notNext_word (by decide))).trans ?_
      refine (bind_eq acceptWord_yes).trans ?_
      refine (ensure_yes rfl).trans ?_
      refine thenIdent_yes.trans ?_
      refine (bind_eq (skipTo_complete hn _)).trans ?_
      refine (bind_eq ((skipBraces_complete hb 0 (.sym c!"}" :: vs)).trans rfl)).trans ?_
      exact ih
  | @fn _ _ n ps ts us vs ws _ _ _ _ _ hp hd ht hb _ ih =>
    refine (((Ev2.snd (decls_complete (by decide) hd (.sym c!"->" :: (us ++ .sym c!"{" :: (vs ++ ws))))).and ((claimBlock hb).2 ws [])).and ih).succ fun d f ⟨⟨hd, hb⟩, ih⟩ => ?_
    cases hp
    all_goals
      item_start
      refine (ifAcceptWord_no (notNext_word (by decide))).trans ?_
      refine (ifAcceptWord_no (notNext_word (by decide))).trans ?_
      refine (ifAcceptWord_no (notNext_word (by decide))).trans ?_
      refine (bind_eq acceptWord_yes).trans ?_
      refine (ensure_yes rfl).trans ?_
      refine thenIdent_yes.trans ?_
      refine thenExpect_yes.trans ?_
      refine (bind_eq hd).trans ?_
      refine thenExpect_yes.trans ?_
      refine (thenTy_yes ht).trans ?_
      refine thenExpect_yes.trans ?_
      refine (bind_eq hb).trans ?_
      exact bind_eq ih

/-- No sequence of tokens stands for two different lists of functions. -/
theorem items_unique {test : Bool} {ts : List Token} {fns fns' : List Fn} (h : IsItems sc test ts fns) (h' : IsItems sc test ts fns') :
    fns = fns' := by
  obtain ⟨N, h⟩ := (items_complete h).and (items_complete h')
  have := h N N (Nat.le_refl N) (Nat.le_refl N)
  exact congrArg Prod.fst (Option.some.inj (this.1.symm.trans this.2))

/-- No sequence of tokens stands for two different blocks. -/
theorem block_unique {ts : List Token} {ss ss' : List Stmt} {e e' : Option Expr} (h : IsBlock sc ts ss e) (h' : IsBlock sc ts ss' e') :
    ss = ss' ∧ e = e' := by
  obtain ⟨N, h⟩ := ((claimBlock h).2 [] []).and ((claimBlock h').2 [] [])
  have := h N N (Nat.le_refl N) (Nat.le_refl N)
  have := congrArg Prod.fst (Option.some.inj (this.1.symm.trans this.2))
  exact ⟨congrArg Prod.fst this, congrArg Prod.snd this⟩

theorem ends_nil {st : Bool} : Ends st [] := by
  have (t : Token) : NotNext t [] := fun us h => by cases h
  exact { paren := this _, path := this _, brace := fun _ => this _, bracket := this _, dot := this _, as := this _,
          stop := fun _ _ _ _ h => by cases h }

/-- No sequence of tokens stands for two different expressions. -/
theorem expr_unique {st : Bool} {ts : List Token} {e e' : Expr} (h : IsExpr sc 1 st ts e) (h' : IsExpr sc 1 st ts e') : e = e' := by
  obtain ⟨n, h, h'⟩ := ((whole h).2 [] ends_nil).exists_both ((whole h').2 [] ends_nil)
  exact congrArg Prod.fst (Option.some.inj (h.symm.trans h'))

end Proofs.Grammar

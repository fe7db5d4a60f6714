import Verif.Source.Lexical

/-!
# The lexer follows the rules

`scan` is the lexer on the text as a whole. `lex_text` says that the lexer, which goes line by line, finds the same tokens; `scan_sound` and
`scan_complete` say that these are the tokens of which the text consists by the rules of `Source.Lexical`.
-/

namespace Proofs.Lexical
open Source Source.Parser Source.Lexical

/-- Where the lexer is. -/
inductive Place
  | code | string | comment | line

/-- The lexer on the text as a whole. -/
def scan : List Nat → Place → Nat → List Token → List Token
  | [], .code, cur, acc => flush cur acc
  | [], _, _, acc => .bad :: acc
  | c :: cs, .line, cur, acc => bif Nat.beq c c!"\n" then scan cs .code cur acc else scan cs .line cur acc
  | c :: cs, .string, cur, acc =>
    bif Nat.beq c c!"\"" then scan cs .code cur acc
    else bif Nat.beq c c!"\\" then scan cs .string cur (.bad :: acc)
    else scan cs .string cur acc
  | c :: cs, .comment, cur, acc => match cs with
    | [] => .bad :: acc
    | d :: ds =>
      bif Nat.beq (c * 0x200000 + d) c!"*/" then scan ds .code cur acc
      else bif Nat.beq (c * 0x200000 + d) c!"/*" then scan (d :: ds) .comment cur (.bad :: acc)
      else scan (d :: ds) .comment cur acc
  | c :: cs, .code, cur, acc =>
    bif isWordChar c then scan cs .code (cur * 0x200000 + c) acc
    else bif isSpace c then scan cs .code 0 (flush cur acc)
    else bif Nat.beq c c!"\"" then scan cs .string 0 (.str :: flush cur acc)
    else match cs with
      | [] => (bif elem c symbols1 then .sym c else .bad) :: flush cur acc
      | d :: ds =>
        bif elem (c * 0x200000 + d) symbols2 then match ds with
          | [] => .sym (c * 0x200000 + d) :: flush cur acc
          | e :: es =>
            bif Nat.beq (c * 0x200000 + d) c!".." && Nat.beq e c!"=" then scan es .code 0 (.sym c!"..=" :: flush cur acc)
            else scan (e :: es) .code 0 (.sym (c * 0x200000 + d) :: flush cur acc)
        else bif Nat.beq (c * 0x200000 + d) c!"//" then scan ds .line 0 (flush cur acc)
        else bif Nat.beq (c * 0x200000 + d) c!"/*" then scan ds .comment 0 (flush cur acc)
        else scan (d :: ds) .code 0 ((bif elem c symbols1 then .sym c else .bad) :: flush cur acc)

/-! ## Line by line -/

theorem elem_iff {x : Nat} {l : List Nat} : elem x l = true ↔ x ∈ l := by
  induction l with
  | nil => simp [elem]
  | cons y l ih =>
    rw [elem, List.mem_cons]
    cases h : Nat.beq x y
    · rw [cond_false, ih]
      refine ⟨.inr, fun h' => h'.resolve_left fun e => ?_⟩
      rw [e, Nat.beq_refl] at h
      cases h
    · exact ⟨fun _ => .inl (Nat.eq_of_beq_eq_true h), fun _ => rfl⟩

theorem elem_false {x : Nat} {l : List Nat} : elem x l = false ↔ x ∉ l := by
  rw [← elem_iff]
  cases elem x l <;> simp

theorem beq_false {m n : Nat} (h : m ≠ n) : Nat.beq m n = false := by
  cases hb : Nat.beq m n
  · rfl
  · exact (h (Nat.eq_of_beq_eq_true hb)).elim

theorem ne_of_beq {m n : Nat} (h : Nat.beq m n = false) : m ≠ n := fun e => by
  rw [e, Nat.beq_refl] at h
  cases h

/-- No symbol of two characters ends with a newline. -/
theorem newline_symbols2 (c : Nat) : elem (c * 0x200000 + c!"\n") symbols2 = false := by
  rw [elem_false]
  intro h
  simp only [symbols2, List.mem_cons, List.not_mem_nil, or_false] at h
  omega

/-- Where the lexer of lines is. -/
def place : Mode → Place
  | .code => .code
  | .string => .string
  | .comment => .comment

theorem scan_line (cs : List Nat) (cur : Nat) (acc : List Token) (rest : List Nat) (h : c!"\n" ∉ cs) :
    scan (cs ++ c!"\n" :: rest) .line cur acc = scan rest .code cur acc := by
  induction cs with
  | nil => rfl
  | cons c cs ih =>
    simp only [List.mem_cons, not_or] at h
    rw [List.cons_append, scan, beq_false (Ne.symm h.1), cond_false, ih h.2]

theorem flush_zero (acc : List Token) : flush 0 acc = acc := rfl

/-- The characters fit into a digit of the number of a string. -/
def Bounded (cs : List Nat) : Prop := ∀ c ∈ cs, c < 0x200000

theorem Bounded.head {c : Nat} {cs : List Nat} (h : Bounded (c :: cs)) : c < 0x200000 := h c (List.mem_cons_self ..)
theorem Bounded.tail {c : Nat} {cs : List Nat} (h : Bounded (c :: cs)) : Bounded cs := fun d hd => h d (List.mem_cons_of_mem _ hd)

/-- The number of a string that ends with a newline. -/
theorem newline_beq {c k : Nat} (h : k % 0x200000 ≠ 10) : Nat.beq (c * 0x200000 + c!"\n") k = false := by
  refine beq_false ?_
  change c * 0x200000 + 10 ≠ k
  omega

/-- The number of a string that begins with a newline. -/
theorem beq_newline {d k : Nat} (hd : d < 0x200000) (h : k / 0x200000 ≠ 10) : Nat.beq (c!"\n" * 0x200000 + d) k = false := by
  refine beq_false ?_
  change 10 * 0x200000 + d ≠ k
  omega

theorem scan_string (c cur : Nat) (cs : List Nat) (acc : List Token) : scan (c :: cs) .string cur acc =
    (bif Nat.beq c c!"\"" then scan cs .code cur acc
    else bif Nat.beq c c!"\\" then scan cs .string cur (.bad :: acc)
    else scan cs .string cur acc) := by
  rw [scan.eq_def]

theorem scan_comment (c d cur : Nat) (ds : List Nat) (acc : List Token) : scan (c :: d :: ds) .comment cur acc =
    (bif Nat.beq (c * 0x200000 + d) c!"*/" then scan ds .code cur acc
    else bif Nat.beq (c * 0x200000 + d) c!"/*" then scan (d :: ds) .comment cur (.bad :: acc)
    else scan (d :: ds) .comment cur acc) := by
  rw [scan.eq_def]

/-- What the lexer does with a character of a symbol. -/
def scanSymbol (c : Nat) (cs : List Nat) (acc : List Token) : List Token := match cs with
  | [] => (bif elem c symbols1 then .sym c else .bad) :: acc
  | d :: ds =>
    bif elem (c * 0x200000 + d) symbols2 then match ds with
      | [] => .sym (c * 0x200000 + d) :: acc
      | e :: es =>
        bif Nat.beq (c * 0x200000 + d) c!".." && Nat.beq e c!"=" then scan es .code 0 (.sym c!"..=" :: acc)
        else scan (e :: es) .code 0 (.sym (c * 0x200000 + d) :: acc)
    else bif Nat.beq (c * 0x200000 + d) c!"//" then scan ds .line 0 acc
    else bif Nat.beq (c * 0x200000 + d) c!"/*" then scan ds .comment 0 acc
    else scan (d :: ds) .code 0 ((bif elem c symbols1 then .sym c else .bad) :: acc)

theorem scan_code (c cur : Nat) (cs : List Nat) (acc : List Token) : scan (c :: cs) .code cur acc =
    (bif isWordChar c then scan cs .code (cur * 0x200000 + c) acc
    else bif isSpace c then scan cs .code 0 (flush cur acc)
    else bif Nat.beq c c!"\"" then scan cs .string 0 (.str :: flush cur acc)
    else scanSymbol c cs (flush cur acc)) := by
  rw [scan.eq_def]
  rfl

/-- A newline in the program. -/
theorem scan_newline (rest : List Nat) (cur : Nat) (acc : List Token) : scan (c!"\n" :: rest) .code cur acc = scan rest .code 0 (flush cur acc) := by
  rw [scan.eq_def]
  rfl

/-- A newline in a string literal. -/
theorem scan_newline_string (rest : List Nat) (cur : Nat) (acc : List Token) :
    scan (c!"\n" :: rest) .string cur acc = scan rest .string cur acc := by
  rw [scan.eq_def]
  rfl

/-- A newline in a comment. -/
theorem scan_newline_comment {rest : List Nat} (hr : Bounded rest) (cur : Nat) (acc : List Token) :
    scan (c!"\n" :: rest) .comment cur acc = scan rest .comment cur acc := by
  rw [scan.eq_def]
  cases rest with
  | nil => rfl
  | cons d ds =>
    dsimp only
    rw [beq_newline hr.head (by decide), beq_newline hr.head (by decide)]
    rfl

/-- The rest of a line. -/
theorem lexLine_scan {rest : List Nat} (hr : Bounded rest) : ∀ (n : Nat) (cs : List Nat) (mode : Mode) (cur : Nat) (acc : List Token),
    cs.length ≤ n → c!"\n" ∉ cs → (mode ≠ .code → cur = 0) →
    ∃ mode' acc', lexLine cs mode cur acc = (mode', acc') ∧ scan (cs ++ c!"\n" :: rest) (place mode) cur acc = scan rest (place mode') 0 acc' := by
  intro n
  induction n with
  | zero =>
    intro cs mode cur acc hn _ hc
    cases List.eq_nil_of_length_eq_zero (Nat.le_zero.1 hn)
    refine ⟨_, _, rfl, ?_⟩
    cases mode with
    | code => exact scan_newline ..
    | string =>
      cases hc (by simp)
      exact scan_newline_string ..
    | comment =>
      cases hc (by simp)
      exact scan_newline_comment hr ..
  | succ n ih =>
    intro cs mode cur acc hn hl hc
    cases cs with
    | nil => exact ih [] mode cur acc (by simp) hl hc
    | cons c cs =>
      simp only [List.mem_cons, not_or] at hl
      simp only [List.length_cons, Nat.add_le_add_iff_right] at hn
      cases mode with
      | string =>
        rw [lexLine, List.cons_append]
        change ∃ mode' acc', _ ∧ scan (c :: (cs ++ c!"\n" :: rest)) .string cur acc = _
        rw [scan_string]
        cases Nat.beq c c!"\""
        · cases Nat.beq c c!"\\"
          · exact ih cs .string cur acc hn hl.2 hc
          · exact ih cs .string cur _ hn hl.2 hc
        · cases hc (by simp)
          exact ih cs .code 0 acc hn hl.2 (by simp)
      | comment =>
        cases hc (by simp)
        rw [lexLine.eq_def, List.cons_append]
        change ∃ mode' acc', _ ∧ scan (c :: (cs ++ c!"\n" :: rest)) .comment 0 acc = _
        cases cs with
        | nil =>
          refine ⟨.comment, acc, rfl, ?_⟩
          rw [List.nil_append, scan_comment, newline_beq (by decide), newline_beq (by decide)]
          exact scan_newline_comment hr ..
        | cons d ds =>
          simp only [List.mem_cons, not_or] at hl
          simp only [List.length_cons] at hn
          rw [List.cons_append, scan_comment]
          dsimp only
          cases Nat.beq (c * 0x200000 + d) c!"*/"
          · cases Nat.beq (c * 0x200000 + d) c!"/*"
            · exact ih (d :: ds) .comment 0 acc (by simp; omega) (by simp [hl.2]) (by simp)
            · exact ih (d :: ds) .comment 0 _ (by simp; omega) (by simp [hl.2]) (by simp)
          · exact ih ds .code 0 acc (by omega) hl.2.2 (by simp)
      | code =>
        rw [lexLine.eq_def, List.cons_append]
        change ∃ mode' acc', _ ∧ scan (c :: (cs ++ c!"\n" :: rest)) .code cur acc = _
        rw [scan_code]
        dsimp only
        cases isWordChar c
        · cases isSpace c
          · cases Nat.beq c c!"\""
            · cases cs with
              | nil =>
                refine ⟨.code, _, rfl, ?_⟩
                rw [cond_false, cond_false, cond_false, List.nil_append, scanSymbol.eq_def]
                dsimp only
                rw [newline_symbols2, newline_beq (by decide), newline_beq (by decide), newline_beq (by decide)]
                exact scan_newline ..
              | cons d ds =>
                simp only [List.mem_cons, not_or] at hl
                simp only [List.length_cons] at hn
                dsimp only [List.cons_append, scanSymbol]
                cases elem (c * 0x200000 + d) symbols2
                · cases Nat.beq (c * 0x200000 + d) c!"//"
                  · cases Nat.beq (c * 0x200000 + d) c!"/*"
                    · exact ih (d :: ds) .code 0 _ (by simp; omega) (by simp [hl.2]) (by simp)
                    · exact ih ds .comment 0 _ (by omega) hl.2.2 (by simp)
                  · exact ⟨.code, _, rfl, scan_line _ _ _ _ hl.2.2⟩
                · cases ds with
                  | nil =>
                    refine ⟨.code, _, rfl, ?_⟩
                    cases Nat.beq (c * 0x200000 + d) c!".." <;> exact scan_newline ..
                  | cons e es =>
                    simp only [List.mem_cons, not_or] at hl
                    simp only [List.length_cons] at hn
                    dsimp only [List.cons_append]
                    cases Nat.beq (c * 0x200000 + d) c!".." && Nat.beq e c!"="
                    · exact ih (e :: es) .code 0 _ (by simp; omega) (by simp [hl.2]) (by simp)
                    · exact ih es .code 0 _ (by omega) hl.2.2.2 (by simp)
            · exact ih cs .string 0 _ hn hl.2 (by simp)
          · exact ih cs .code 0 _ hn hl.2 (by simp)
        · exact ih cs .code _ acc hn hl.2 (by simp)

theorem bounded_text {lines : List (List Nat)} (h : ∀ l ∈ lines, Bounded l) : Bounded (text lines) := by
  intro c hc
  simp only [text, List.mem_flatMap, List.mem_append, List.mem_singleton] at hc
  obtain ⟨l, hl, hc | rfl⟩ := hc
  · exact h l hl c hc
  · omega

/-- Going line by line makes no difference. -/
theorem lex_text {lines : List (List Nat)} (hb : ∀ l ∈ lines, Bounded l) (hl : ∀ l ∈ lines, c!"\n" ∉ l) :
    ∀ (mode : Mode) (acc : List Token), lex lines mode acc = scan (text lines) (place mode) 0 acc := by
  induction lines with
  | nil => intro mode acc; cases mode <;> rfl
  | cons l lines ih =>
    intro mode acc
    obtain ⟨mode', acc', h, h'⟩ := lexLine_scan (bounded_text fun x hx => hb x (List.mem_cons_of_mem _ hx)) l.length l mode 0 acc
      (Nat.le_refl _) (hl l (List.mem_cons_self ..)) (fun _ => rfl)
    rw [lex, h]
    refine (ih (fun x hx => hb x (List.mem_cons_of_mem _ hx)) (fun x hx => hl x (List.mem_cons_of_mem _ hx)) mode' acc').trans ?_
    rw [← h']
    change _ = scan (List.flatMap (fun l => l ++ [c!"\n"]) (l :: lines)) (place mode) 0 acc
    rw [List.flatMap_cons, List.append_assoc]
    rfl

/-! ## Words -/

/-- The characters that occur in words are digits of the number of a string. -/
theorem wordChar_range {c : Nat} (h : isWordChar c = true) : 0 < c ∧ c < 0x200000 := by
  simp only [isWordChar, between, Bool.or_eq_true, Bool.and_eq_true, Nat.ble_eq] at h
  have h : (((97 ≤ c ∧ c ≤ 122) ∨ (48 ≤ c ∧ c ≤ 57)) ∨ (65 ≤ c ∧ c ≤ 90)) ∨ c = 95 :=
    h.imp id fun h => Nat.eq_of_beq_eq_true h
  omega

theorem wordCode_append (v : Nat) (w : List Nat) (c : Nat) : wordCode v (w ++ [c]) = wordCode v w * 0x200000 + c := by
  induction w generalizing v with
  | nil => rfl
  | cons d w ih => exact ih _

theorem digits_wordCode (w : List Nat) (hw : ∀ c ∈ w, isWordChar c = true) : ∀ (fuel : Nat) (acc : List Nat), wordCode 0 w ≤ fuel →
    digits fuel (wordCode 0 w) acc = w ++ acc := by
  obtain ⟨r, rfl⟩ : ∃ r, w = r.reverse := ⟨w.reverse, by rw [List.reverse_reverse]⟩
  induction r with
  | nil =>
    intro fuel acc _
    cases fuel <;> rfl
  | cons c r ih =>
    rw [List.reverse_cons] at hw ⊢
    generalize r.reverse = w at hw ih ⊢
    intro fuel acc hf
    have hc := wordChar_range (hw c (by simp))
    rw [wordCode_append] at hf ⊢
    obtain ⟨fuel, rfl⟩ : ∃ n, fuel = n + 1 := ⟨fuel - 1, by omega⟩
    rw [digits, beq_false (by omega), cond_false, show (wordCode 0 w * 0x200000 + c) / 0x200000 = wordCode 0 w by omega,
      show (wordCode 0 w * 0x200000 + c) % 0x200000 = c by omega, ih (fun d hd => hw d (by simp [hd])) _ _ (by omega)]
    simp

theorem wordCode_pos {c : Nat} {w : List Nat} (hw : ∀ x ∈ c :: w, isWordChar x = true) : wordCode 0 (c :: w) ≠ 0 := by
  have h := digits_wordCode (c :: w) hw (wordCode 0 (c :: w)) [] (Nat.le_refl _)
  intro h0
  rw [h0] at h
  cases h

/-- The word ends. -/
theorem flush_word {c : Nat} {w : List Nat} (hw : ∀ x ∈ c :: w, isWordChar x = true) (acc : List Token) :
    flush (wordCode 0 (c :: w)) acc = (bif isDigit c then numeralToken (c :: w) else .word (wordCode 0 (c :: w))) :: acc := by
  rw [flush, beq_false (wordCode_pos hw), cond_false, wordToken, digits_wordCode _ hw _ _ (Nat.le_refl _), List.append_nil]

theorem between_iff {a b c : Nat} : between a b c = true ↔ a ≤ c ∧ c ≤ b := by
  rw [between, Bool.and_eq_true, Nat.ble_eq, Nat.ble_eq]

theorem between_false {a b c : Nat} : between a b c = false ↔ ¬ (a ≤ c ∧ c ≤ b) := by
  rw [← between_iff]
  cases between a b c <;> simp

theorem isDigit_iff {c : Nat} : isDigit c = true ↔ c!"0" ≤ c ∧ c ≤ c!"9" := between_iff

/-! ## Numerals -/

theorem digit_decimal {c : Nat} (h : c!"0" ≤ c) (h' : c ≤ c!"9") : digit c = c - c!"0" := by
  rw [digit, isDigit_iff.2 ⟨h, h'⟩, cond_true]

theorem digit_lower {c : Nat} (h : c!"a" ≤ c) (h' : c ≤ c!"f") : digit c = c - c!"a" + 10 := by
  have hd : isDigit c = false := between_false.2 fun hc => by
    have h : 97 ≤ c := h
    have hc : c ≤ 57 := hc.2
    omega
  rw [digit, hd, cond_false, between_iff.2 ⟨h, h'⟩, cond_true]

theorem digit_upper {c : Nat} (h : c!"A" ≤ c) (h' : c ≤ c!"F") : digit c = c - c!"A" + 10 := by
  have hd : isDigit c = false := between_false.2 fun hc => by
    have h : 65 ≤ c := h
    have hc : c ≤ 57 := hc.2
    omega
  have hl : between c!"a" c!"f" c = false := between_false.2 fun hc => by
    have h' : c ≤ 70 := h'
    have hc : 97 ≤ c := hc.1
    omega
  rw [digit, hd, cond_false, hl, cond_false, between_iff.2 ⟨h, h'⟩, cond_true]

theorem value_complete {base : Nat} {acc n : Nat} {cs : List Nat} (h : IsDigits base acc cs n) : value base acc cs = .num n := by
  have lt {m : Nat} (h : m < base) : Nat.blt m base = true := by rw [Nat.blt_eq]; exact h
  induction h with
  | nil => rfl
  | separator _ ih => exact ih
  | @decimal acc c n cs h h' hb _ ih =>
    rw [value, beq_false (fun e => by rw [e] at h'; exact absurd h' (by decide)), cond_false, digit_decimal h h', lt hb, cond_true, ih]
  | @lower acc c n cs h h' hb _ ih =>
    rw [value, beq_false (fun e => by rw [e] at h; exact absurd h (by decide)), cond_false, digit_lower h h', lt hb, cond_true, ih]
  | @upper acc c n cs h h' hb _ ih =>
    rw [value, beq_false (fun e => by rw [e] at h'; exact absurd h' (by decide)), cond_false, digit_upper h h', lt hb, cond_true, ih]

/-- A digit is one of three kinds. -/
theorem digit_cases (c : Nat) : (c!"0" ≤ c ∧ c ≤ c!"9") ∨ (c!"a" ≤ c ∧ c ≤ c!"f") ∨ (c!"A" ≤ c ∧ c ≤ c!"F") ∨ digit c = 99 := by
  unfold digit
  cases h : isDigit c
  · cases h' : between c!"a" c!"f" c
    · cases h'' : between c!"A" c!"F" c
      · exact .inr (.inr (.inr rfl))
      · exact .inr (.inr (.inl (between_iff.1 h'')))
    · exact .inr (.inl (between_iff.1 h'))
  · exact .inl (isDigit_iff.1 h)

theorem value_sound {base : Nat} (hbase : base ≤ 99) (cs : List Nat) : ∀ acc, value base acc cs ≠ .bad → ∃ n, value base acc cs = .num n ∧
    IsDigits base acc cs n := by
  induction cs with
  | nil => intro acc _; exact ⟨acc, rfl, .nil⟩
  | cons c cs ih =>
    intro acc h
    rw [value] at h ⊢
    cases hc : Nat.beq c c!"_"
    · rw [hc, cond_false] at h
      rw [cond_false]
      cases hb : Nat.blt (digit c) base
      · rw [hb] at h; exact (h rfl).elim
      · rw [hb, cond_true] at h
        rw [cond_true]
        obtain ⟨n, hn, hd⟩ := ih _ h
        refine ⟨n, hn, ?_⟩
        rw [Nat.blt_eq] at hb
        rcases digit_cases c with hc | hc | hc | hc
        · rw [digit_decimal hc.1 hc.2] at hb hd
          exact .decimal hc.1 hc.2 hb hd
        · rw [digit_lower hc.1 hc.2] at hb hd
          exact .lower hc.1 hc.2 hb hd
        · rw [digit_upper hc.1 hc.2] at hb hd
          exact .upper hc.1 hc.2 hb hd
        · omega
    · rw [hc, cond_true] at h
      rw [cond_true]
      obtain ⟨n, hn, hd⟩ := ih _ h
      cases Nat.eq_of_beq_eq_true hc
      exact ⟨n, hn, .separator hd⟩

theorem numeral_sound {c : Nat} {cs : List Nat} (hc : isDigit c = true) (h : numeralToken (c :: cs) ≠ .bad) :
    ∃ n, numeralToken (c :: cs) = .num n ∧ IsNumeral (c :: cs) n := by
  have hr := isDigit_iff.1 hc
  cases cs with
  | nil =>
    obtain ⟨n, hn, hd⟩ := value_sound (base := 10) (by omega) _ _ h
    exact ⟨n, hn, .decimal hr.1 hr.2 hd⟩
  | cons d ds =>
    rw [numeralToken] at h ⊢
    dsimp only at h ⊢
    cases hx : Nat.beq c c!"0" && Nat.beq d c!"x"
    · rw [hx, cond_false] at h
      rw [cond_false]
      obtain ⟨n, hn, hd⟩ := value_sound (base := 10) (by omega) _ _ h
      exact ⟨n, hn, .decimal hr.1 hr.2 hd⟩
    · rw [hx, cond_true] at h
      rw [cond_true]
      obtain ⟨n, hn, hd⟩ := value_sound (base := 16) (by omega) _ _ h
      rw [Bool.and_eq_true] at hx
      cases Nat.eq_of_beq_eq_true hx.1
      cases Nat.eq_of_beq_eq_true hx.2
      exact ⟨n, hn, .hexadecimal hd⟩

theorem digits_wordChar {base acc n : Nat} {cs : List Nat} (h : IsDigits base acc cs n) : ∀ c ∈ cs, isWordChar c = true := by
  have word {c : Nat} (h : ((97 ≤ c ∧ c ≤ 122) ∨ (48 ≤ c ∧ c ≤ 57)) ∨ (65 ≤ c ∧ c ≤ 90)) : isWordChar c = true := by
    simp only [isWordChar, between, Bool.or_eq_true, Bool.and_eq_true, Nat.ble_eq]
    exact .inl h
  induction h with
  | nil => simp
  | separator _ ih =>
    intro c hc
    rcases List.mem_cons.1 hc with rfl | hc
    · rfl
    · exact ih c hc
  | @decimal _ d _ _ h h' _ _ ih =>
    intro c hc
    rcases List.mem_cons.1 hc with rfl | hc
    · exact word (.inl (.inr ⟨h, h'⟩))
    · exact ih c hc
  | @lower _ d _ _ h h' _ _ ih =>
    intro c hc
    rcases List.mem_cons.1 hc with rfl | hc
    · have h' : c ≤ 102 := h'
      exact word (.inl (.inl ⟨h, by omega⟩))
    · exact ih c hc
  | @upper _ d _ _ h h' _ _ ih =>
    intro c hc
    rcases List.mem_cons.1 hc with rfl | hc
    · have h' : c ≤ 70 := h'
      exact word (.inr ⟨h, by omega⟩)
    · exact ih c hc

theorem numeral_complete {cs : List Nat} {n : Nat} (h : IsNumeral cs n) :
    ∃ c ds, cs = c :: ds ∧ isDigit c = true ∧ (∀ x ∈ cs, isWordChar x = true) ∧ numeralToken cs = .num n := by
  cases h with
  | @decimal c n cs h h' hd =>
    refine ⟨c, cs, rfl, isDigit_iff.2 ⟨h, h'⟩, digits_wordChar hd, ?_⟩
    cases cs with
    | nil => exact value_complete hd
    | cons d ds =>
      rw [numeralToken]
      dsimp only
      cases hx : Nat.beq c c!"0" && Nat.beq d c!"x"
      · exact value_complete hd
      · rw [Bool.and_eq_true] at hx
        cases Nat.eq_of_beq_eq_true hx.1
        cases Nat.eq_of_beq_eq_true hx.2
        have h := value_complete hd
        cases h
  | hexadecimal hd =>
    refine ⟨_, _, rfl, rfl, ?_, value_complete hd⟩
    intro c hc
    simp only [List.mem_cons] at hc
    rcases hc with rfl | rfl | hc
    · rfl
    · rfl
    · exact digits_wordChar hd c hc

/-! ## What the lexer finds follows the rules -/

/-- The lexer adds tokens of which the statement holds, unless it adds `bad`. -/
def Adds (out acc : List Token) (φ : List Token → Prop) : Prop := .bad ∉ out → ∃ ts, out = ts.reverse ++ acc ∧ φ ts

theorem Adds.mono {out acc : List Token} {φ ψ : List Token → Prop} (h : Adds out acc φ) (hi : ∀ ts, φ ts → ψ ts) : Adds out acc ψ := by
  intro hb
  obtain ⟨ts, ho, ht⟩ := h hb
  exact ⟨ts, ho, hi ts ht⟩

/-- A token in front. -/
theorem Adds.cons {out acc : List Token} {t : Token} {φ ψ : List Token → Prop} (h : Adds out (t :: acc) φ) (hi : t ≠ .bad → ∀ ts, φ ts → ψ (t :: ts)) :
    Adds out acc ψ := by
  intro hb
  obtain ⟨ts, ho, ht⟩ := h hb
  refine ⟨t :: ts, by rw [ho, List.reverse_cons, List.append_assoc]; rfl, hi (fun e => hb ?_) ts ht⟩
  rw [ho, e]
  simp

/-- `bad` is among the tokens. -/
theorem Adds.bad {out acc : List Token} {φ ψ : List Token → Prop} (h : Adds out (.bad :: acc) φ) : Adds out acc ψ :=
  h.cons fun e => (e rfl).elim

theorem Adds.nil {acc : List Token} {φ : List Token → Prop} (h : φ []) : Adds acc acc φ := fun _ => ⟨[], rfl, h⟩

theorem wordEnds_nil : WordEnds [] := fun _ _ h => by cases h

theorem wordEnds_cons {c : Nat} {cs : List Nat} (h : isWordChar c = false) : WordEnds (c :: cs) := fun _ _ e => by cases e; exact h

/-- Where a word ends, its token is added. -/
theorem scan_flush {cs : List Nat} (h : WordEnds cs) (cur : Nat) (acc : List Token) : scan cs .code cur acc = scan cs .code 0 (flush cur acc) := by
  cases cs with
  | nil => rfl
  | cons c cs => rw [scan_code, scan_code, h c cs rfl, cond_false, cond_false, flush_zero]

/-- The number of two characters is that of a string of two characters. -/
theorem pair_inj {c d a b : Nat} (hd : d < 0x200000) (hb : b < 0x200000) (h : c * 0x200000 + d = a * 0x200000 + b) : c = a ∧ d = b := by omega

theorem pair_beq {c d a b : Nat} {k : Nat} (hd : d < 0x200000) (hk : k = a * 0x200000 + b) (hb : b < 0x200000)
    (h : Nat.beq (c * 0x200000 + d) k = true) : c = a ∧ d = b := by
  have := Nat.eq_of_beq_eq_true h
  omega

theorem pair_beq_false {c d a b : Nat} {k : Nat} (hk : k = a * 0x200000 + b) (h : Nat.beq (c * 0x200000 + d) k = false) : ¬ (c = a ∧ d = b) := by
  intro ⟨e, e'⟩
  exact ne_of_beq h (by rw [hk, e, e'])

structure Sound (cs : List Nat) : Prop where
  code : ∀ acc, Adds (scan cs .code 0 acc) acc (IsTokens cs)
  word : ∀ c w acc, (∀ x ∈ c :: w, isWordChar x = true) → Adds (scan cs .code (wordCode 0 (c :: w)) acc) acc (IsTokens (c :: w ++ cs))
  string : ∀ acc, Adds (scan cs .string 0 acc) acc fun ts => ∃ rest, StringEnds cs rest ∧ IsTokens rest ts
  comment : ∀ acc, Adds (scan cs .comment 0 acc) acc fun ts => ∃ rest, CommentEnds cs rest ∧ IsTokens rest ts
  line : ∀ acc, Adds (scan cs .line 0 acc) acc fun ts => ∃ rest, LineEnds cs rest ∧ IsTokens rest ts

/-- A word that ends. -/
theorem word_sound {cs : List Nat} (hc : ∀ acc, Adds (scan cs .code 0 acc) acc (IsTokens cs)) (he : WordEnds cs) {c : Nat} {w : List Nat}
    (acc : List Token) (hw : ∀ x ∈ c :: w, isWordChar x = true) : Adds (scan cs .code (wordCode 0 (c :: w)) acc) acc (IsTokens (c :: w ++ cs)) := by
  rw [scan_flush he, flush_word hw]
  refine (hc _).cons fun hb ts ht => ?_
  cases hd : isDigit c
  · exact .word hw hd he ht
  · rw [hd, cond_true] at hb
    obtain ⟨n, hn, hi⟩ := numeral_sound hd hb
    rw [cond_true, hn]
    exact .num hi he ht

theorem symbol_sound {c : Nat} {cs : List Nat} (hb : Bounded (c :: cs)) (ih : ∀ ds, ds.length ≤ cs.length → Bounded ds → Sound ds) (acc : List Token) :
    Adds (scanSymbol c cs acc) acc (IsTokens (c :: cs)) := by
  have one (rest : List Nat) (ts : List Token) (hr : ∀ d rest', rest = d :: rest' → pair c d ∉ c!"//" :: c!"/*" :: symbols2)
      (hb : (bif elem c symbols1 then .sym c else Token.bad) ≠ .bad) (ht : IsTokens rest ts) :
      IsTokens (c :: rest) ((bif elem c symbols1 then .sym c else .bad) :: ts) := by
    cases hc : elem c symbols1
    · rw [hc] at hb; exact (hb rfl).elim
    · exact .symbol1 (elem_iff.1 hc) hr ht
  cases cs with
  | nil =>
    exact (Adds.nil (φ := IsTokens []) .nil).cons fun hb ts ht => one [] ts (fun _ _ e => by cases e) hb ht
  | cons d ds =>
    have hd := hb.tail.head
    unfold scanSymbol
    dsimp only
    cases h2 : elem (c * 0x200000 + d) symbols2
    · rw [cond_false]
      cases hl : Nat.beq (c * 0x200000 + d) c!"//"
      · rw [cond_false]
        cases hc : Nat.beq (c * 0x200000 + d) c!"/*"
        · rw [cond_false]
          refine ((ih (d :: ds) (Nat.le_refl _) hb.tail).code _).cons fun hb ts ht => one _ ts (fun d' rest' e => ?_) hb ht
          cases e
          rw [List.mem_cons, List.mem_cons, not_or, not_or]
          exact ⟨ne_of_beq hl, ne_of_beq hc, elem_false.1 h2⟩
        · rw [cond_true]
          obtain ⟨rfl, rfl⟩ := pair_beq (a := c!"/") (b := c!"*") hd rfl (by decide) hc
          exact ((ih ds (by simp) hb.tail.tail).comment acc).mono fun ts ⟨rest, hr, ht⟩ => .comment hr ht
      · rw [cond_true]
        obtain ⟨rfl, rfl⟩ := pair_beq (a := c!"/") (b := c!"/") hd rfl (by decide) hl
        exact ((ih ds (by simp) hb.tail.tail).line acc).mono fun ts ⟨rest, hr, ht⟩ => .line hr ht
    · rw [cond_true]
      have h2 := elem_iff.1 h2
      cases ds with
      | nil =>
        exact (Adds.nil (φ := IsTokens []) .nil).cons fun _ ts ht => .symbol2 h2 (fun _ e => by cases e) ht
      | cons e es =>
        dsimp only
        cases he : Nat.beq (c * 0x200000 + d) c!".." && Nat.beq e c!"="
        · rw [cond_false]
          refine ((ih (e :: es) (by simp) hb.tail.tail).code _).cons fun _ ts ht => .symbol2 h2 (fun rest' e' hp => ?_) ht
          cases e'
          change c * 0x200000 + d = _ at hp
          rw [hp] at he
          cases he
        · rw [cond_true]
          rw [Bool.and_eq_true] at he
          obtain ⟨rfl, rfl⟩ := pair_beq (a := c!".") (b := c!".") hd rfl (by decide) he.1
          cases Nat.eq_of_beq_eq_true he.2
          exact ((ih es (by simp; omega) hb.tail.tail.tail).code _).cons fun _ ts ht => .symbol3 ht

theorem scan_sound : ∀ (n : Nat) (cs : List Nat), cs.length ≤ n → Bounded cs → Sound cs := by
  intro n
  induction n with
  | zero =>
    intro cs hn _
    cases List.eq_nil_of_length_eq_zero (Nat.le_zero.1 hn)
    have hc : ∀ acc, Adds (scan [] .code 0 acc) acc (IsTokens []) := fun acc => .nil .nil
    have hb (p : Place) (hp : p ≠ .code) (acc : List Token) (φ : List Token → Prop) : Adds (scan [] p 0 acc) acc φ := by
      cases p <;> first | exact (hp rfl).elim | exact (Adds.nil (φ := fun _ => True) trivial).bad
    exact ⟨hc, fun c w acc hw => word_sound hc wordEnds_nil acc hw, fun acc => hb _ (by simp) _ _, fun acc => hb _ (by simp) _ _,
      fun acc => hb _ (by simp) _ _⟩
  | succ n ih =>
    intro cs hn hb
    cases cs with
    | nil => exact ih [] (by simp) hb
    | cons c cs =>
      simp only [List.length_cons, Nat.add_le_add_iff_right] at hn
      have ih' := ih cs hn hb.tail
      have hc : ∀ acc, Adds (scan (c :: cs) .code 0 acc) acc (IsTokens (c :: cs)) := by
        intro acc
        rw [scan_code]
        cases hw : isWordChar c
        · cases hs : isSpace c
          · cases hq : Nat.beq c c!"\""
            · exact symbol_sound hb (fun ds hd hb' => ih ds (by omega) hb') acc
            · cases Nat.eq_of_beq_eq_true hq
              exact (ih'.string (.str :: acc)).cons fun _ ts ⟨rest, hr, ht⟩ => .string hr ht
          · exact (ih'.code acc).mono fun ts ht => .space hs ht
        · have := ih'.word c [] acc (by simp [hw])
          rw [show wordCode 0 [c] = 0 * 0x200000 + c from rfl] at this
          exact this
      refine ⟨hc, fun d w acc hw => ?_, fun acc => ?_, fun acc => ?_, fun acc => ?_⟩
      · cases hw' : isWordChar c
        · exact word_sound hc (wordEnds_cons hw') acc hw
        · rw [scan_code, hw', cond_true]
          have := ih'.word d (w ++ [c]) acc fun x hx => by
            rw [← List.cons_append, List.mem_append, List.mem_singleton] at hx
            rcases hx with hx | rfl
            · exact hw x hx
            · exact hw'
          rw [← List.cons_append, wordCode_append, List.append_assoc] at this
          exact this
      · rw [scan_string]
        cases hq : Nat.beq c c!"\""
        · cases hs : Nat.beq c c!"\\"
          · exact (ih'.string acc).mono fun ts ⟨rest, hr, ht⟩ => ⟨rest, .char (ne_of_beq hq) (ne_of_beq hs) hr, ht⟩
          · exact (ih'.string _).bad
        · cases Nat.eq_of_beq_eq_true hq
          exact (ih'.code acc).mono fun ts ht => ⟨cs, .close, ht⟩
      · cases cs with
        | nil => exact (Adds.nil (φ := fun _ => True) trivial).bad
        | cons d ds =>
          rw [scan_comment]
          cases hc : Nat.beq (c * 0x200000 + d) c!"*/"
          · cases ho : Nat.beq (c * 0x200000 + d) c!"/*"
            · exact (ih'.comment acc).mono fun ts ⟨rest, hr, ht⟩ =>
                ⟨rest, .char (pair_beq_false (by rfl) hc) (pair_beq_false (by rfl) ho) hr, ht⟩
            · exact (ih'.comment _).bad
          · obtain ⟨rfl, rfl⟩ := pair_beq (a := c!"*") (b := c!"/") hb.tail.head rfl (by decide) hc
            exact ((ih ds (by simp at hn; omega) hb.tail.tail).code acc).mono fun ts ht => ⟨ds, .close, ht⟩
      · rw [scan]
        cases hl : Nat.beq c c!"\n"
        · exact (ih'.line acc).mono fun ts ⟨rest, hr, ht⟩ => ⟨rest, .char (ne_of_beq hl) hr, ht⟩
        · cases Nat.eq_of_beq_eq_true hl
          exact (ih'.code acc).mono fun ts ht => ⟨cs, .close, ht⟩

/-! ## What follows the rules the lexer finds -/

theorem line_complete {cs rest : List Nat} (h : LineEnds cs rest) (acc : List Token) : scan cs .line 0 acc = scan rest .code 0 acc := by
  induction h with
  | close => rfl
  | char h _ ih => rw [scan, beq_false h, cond_false, ih]

theorem string_complete {cs rest : List Nat} (h : StringEnds cs rest) (acc : List Token) : scan cs .string 0 acc = scan rest .code 0 acc := by
  induction h with
  | close => rw [scan_string]; rfl
  | char h h' _ ih => rw [scan_string, beq_false h, cond_false, beq_false h', cond_false, ih]

theorem comment_complete {cs rest : List Nat} (h : CommentEnds cs rest) (hb : Bounded cs) (acc : List Token) :
    scan cs .comment 0 acc = scan rest .code 0 acc := by
  induction h with
  | close => rw [scan_comment]; rfl
  | @char c d cs _ h h' _ ih =>
    have hd := hb.tail.head
    have h1 : Nat.beq (c * 0x200000 + d) c!"*/" = false := by
      cases e : Nat.beq (c * 0x200000 + d) c!"*/"
      · rfl
      · exact (h (pair_beq hd rfl (by decide) e)).elim
    have h2 : Nat.beq (c * 0x200000 + d) c!"/*" = false := by
      cases e : Nat.beq (c * 0x200000 + d) c!"/*"
      · rfl
      · exact (h' (pair_beq hd rfl (by decide) e)).elim
    rw [scan_comment, h1, h2, cond_false, cond_false, ih hb.tail]

theorem Bounded.drop {cs rest : List Nat} {n : Nat} (h : Bounded cs) (e : rest = cs.drop n) : Bounded rest :=
  fun c hc => h c (List.mem_of_mem_drop (e ▸ hc))

theorem lineEnds_drop {cs rest : List Nat} (h : LineEnds cs rest) (hb : Bounded cs) : Bounded rest := by
  induction h with
  | close => exact hb.tail
  | char _ _ ih => exact ih hb.tail

theorem stringEnds_drop {cs rest : List Nat} (h : StringEnds cs rest) (hb : Bounded cs) : Bounded rest := by
  induction h with
  | close => exact hb.tail
  | char _ _ _ ih => exact ih hb.tail

theorem commentEnds_drop {cs rest : List Nat} (h : CommentEnds cs rest) (hb : Bounded cs) : Bounded rest := by
  induction h with
  | close => exact hb.tail.tail
  | char _ _ _ ih => exact ih hb.tail

/-- The characters of a word. -/
theorem scan_word (w rest : List Nat) (hw : ∀ x ∈ w, isWordChar x = true) (v : Nat) (acc : List Token) :
    scan (w ++ rest) .code v acc = scan rest .code (wordCode v w) acc := by
  induction w generalizing v with
  | nil => rfl
  | cons c w ih =>
    rw [List.cons_append, scan_code, hw c (by simp), cond_true, ih (fun x hx => hw x (by simp [hx]))]
    rfl

/-- A character with which no word, space or string literal begins. -/
def plain (c : Nat) : Bool := !isWordChar c && !isSpace c && !Nat.beq c c!"\""

theorem scan_plain {c : Nat} (h : plain c = true) (cs : List Nat) (acc : List Token) : scan (c :: cs) .code 0 acc = scanSymbol c cs acc := by
  simp only [plain, Bool.and_eq_true, Bool.not_eq_true'] at h
  rw [scan_code, h.1.1, h.1.2, h.2]
  rfl

theorem plain_symbol1 {c : Nat} (h : c ∈ symbols1) : plain c = true := by
  have : ∀ c ∈ symbols1, plain c = true := by decide
  exact this c h

theorem plain_symbol2 {c d : Nat} (hd : d < 0x200000) (h : pair c d ∈ symbols2) : plain c = true := by
  have : ∀ s ∈ symbols2, plain (s / 0x200000) = true := by decide
  have := this _ h
  rwa [show pair c d / 0x200000 = c by unfold pair; omega] at this

theorem scan_complete {cs : List Nat} {ts : List Token} (h : IsTokens cs ts) (hb : Bounded cs) :
    ∀ acc, scan cs .code 0 acc = ts.reverse ++ acc := by
  induction h with
  | nil => intro acc; rfl
  | @space c cs ts hs _ ih =>
    intro acc
    have hw : isWordChar c = false := by
      simp only [isSpace, Bool.or_eq_true] at hs
      rcases hs with ((hs | hs) | hs) | hs <;> cases Nat.eq_of_beq_eq_true hs <;> rfl
    rw [scan_code, hw, hs]
    exact ih hb.tail acc
  | line hl _ ih =>
    intro acc
    rw [scan_plain rfl, ← ih (lineEnds_drop hl hb.tail.tail), ← line_complete hl]
    rfl
  | comment hl _ ih =>
    intro acc
    rw [scan_plain rfl, ← ih (commentEnds_drop hl hb.tail.tail), ← comment_complete hl hb.tail.tail]
    rfl
  | string hl _ ih =>
    intro acc
    rw [scan_code, List.reverse_cons, List.append_assoc, List.singleton_append, ← ih (stringEnds_drop hl hb.tail), ← string_complete hl]
    rfl
  | @word c w rest ts hw hd he _ ih =>
    intro acc
    rw [scan_word _ _ hw, scan_flush he, flush_word hw, hd, cond_false, ih (fun x hx => hb x (List.mem_append_right _ hx)), List.reverse_cons,
      List.append_assoc, List.singleton_append]
  | @num n cs rest ts hn he _ ih =>
    intro acc
    obtain ⟨c, w, rfl, hd, hw, hn⟩ := numeral_complete hn
    rw [scan_word _ _ hw, scan_flush he, flush_word hw, hd, cond_true, hn, ih (fun x hx => hb x (List.mem_append_right _ hx)), List.reverse_cons,
      List.append_assoc, List.singleton_append]
  | symbol3 _ ih =>
    intro acc
    rw [scan_plain rfl, List.reverse_cons, List.append_assoc, List.singleton_append, ← ih hb.tail.tail.tail]
    rfl
  | @symbol2 c d rest ts h hn _ ih =>
    intro acc
    rw [scan_plain (plain_symbol2 hb.tail.head h), List.reverse_cons, List.append_assoc, List.singleton_append, ← ih hb.tail.tail]
    unfold scanSymbol
    dsimp only
    rw [show elem (c * 0x200000 + d) symbols2 = true from elem_iff.2 h, cond_true]
    cases rest with
    | nil => rfl
    | cons e es =>
      dsimp only
      cases he : Nat.beq (c * 0x200000 + d) c!".." && Nat.beq e c!"="
      · rfl
      · rw [Bool.and_eq_true] at he
        cases Nat.eq_of_beq_eq_true he.2
        exact (hn es rfl (Nat.eq_of_beq_eq_true he.1)).elim
  | @symbol1 c rest ts h hn _ ih =>
    intro acc
    rw [scan_plain (plain_symbol1 h), List.reverse_cons, List.append_assoc, List.singleton_append, ← ih hb.tail]
    unfold scanSymbol
    have h := elem_iff.2 h
    cases rest with
    | nil => dsimp only; rw [h]; rfl
    | cons d ds =>
      have hn := hn d ds rfl
      rw [List.mem_cons, List.mem_cons, not_or, not_or] at hn
      dsimp only
      rw [show elem (c * 0x200000 + d) symbols2 = false from elem_false.2 hn.2.2, show Nat.beq (c * 0x200000 + d) c!"//" = false from beq_false hn.1,
        show Nat.beq (c * 0x200000 + d) c!"/*" = false from beq_false hn.2.1, h]
      rfl

theorem no_bad {cs : List Nat} {ts : List Token} (h : IsTokens cs ts) : .bad ∉ ts := by
  induction h <;> simp_all

theorem reverseTokens_some (ts acc : List Token) : .bad ∉ ts → reverseTokens ts acc = some (ts.reverse ++ acc) := by
  induction ts generalizing acc with
  | nil => intro _; rfl
  | cons t ts ih =>
    intro h
    simp only [List.mem_cons, not_or] at h
    rw [List.reverse_cons, List.append_assoc, List.singleton_append, ← ih _ h.2]
    cases t <;> first | rfl | exact (h.1 rfl).elim

theorem reverseTokens_bad {ts acc r : List Token} (h : reverseTokens ts acc = some r) : .bad ∉ ts := by
  induction ts generalizing acc with
  | nil => simp
  | cons t ts ih =>
    cases t
    case bad => cases h
    all_goals
      have := ih (h : reverseTokens ts _ = some r)
      simpa using this

theorem areLines_iff {lines : List (List Nat)} : areLines lines = true ↔ ∀ l ∈ lines, c!"\n" ∉ l := by
  induction lines with
  | nil => simp [areLines]
  | cons l ls ih =>
    rw [areLines]
    cases h : elem c!"\n" l
    · rw [cond_false, ih]
      simp [elem_false.1 h]
    · simp [elem_iff.1 h]

/-- The lexer finds the tokens of which the text consists. -/
theorem tokens_iff {lines : List (List Nat)} (hb : ∀ l ∈ lines, Bounded l) (ts : List Token) :
    tokens lines = some ts ↔ (∀ l ∈ lines, c!"\n" ∉ l) ∧ IsTokens (text lines) ts := by
  rw [tokens, ← areLines_iff]
  cases ha : areLines lines
  · rw [cond_false]
    simp
  rw [cond_true, lex_text hb (areLines_iff.1 ha)]
  constructor
  · intro h
    have hbad := reverseTokens_bad h
    obtain ⟨ts', ho, ht⟩ := (scan_sound _ _ (Nat.le_refl _) (bounded_text hb)).code [] hbad
    rw [reverseTokens_some _ _ hbad, List.append_nil] at h
    cases h
    rw [show scan (text lines) (place .code) 0 [] = ts'.reverse ++ [] from ho, List.append_nil, List.reverse_reverse]
    exact ⟨rfl, ht⟩
  · intro ⟨_, h⟩
    rw [show scan (text lines) (place .code) 0 [] = ts.reverse ++ [] from scan_complete h (bounded_text hb) [], List.append_nil,
      reverseTokens_some _ _ (by rw [List.mem_reverse]; exact no_bad h), List.append_nil, List.reverse_reverse]

theorem bounded_toCodes (s : String) : Bounded (toCodes s) := by
  intro c hc
  obtain ⟨d, _, rfl⟩ := List.mem_map.1 hc
  have := d.valid
  unfold Char.toNat
  rcases this with h | h <;> omega

/-- No text consists of two different sequences of tokens. -/
theorem tokens_unique {cs : List Nat} (hb : Bounded cs) {ts ts' : List Token} (h : IsTokens cs ts) (h' : IsTokens cs ts') : ts = ts' := by
  have := (scan_complete h hb []).symm.trans (scan_complete h' hb [])
  rwa [List.append_nil, List.append_nil, List.reverse_inj] at this

end Proofs.Lexical

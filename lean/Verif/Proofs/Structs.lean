import Verif.Proofs.GrammarBlocks
import Verif.Proofs.Lexical
import Verif.Source.Parsed

/-! The `struct` declarations of a text. The kernel of Lean looks for them in every file. -/

namespace Proofs.Structs
open Source Source.Grammar Source.Parser Lean Meta
open Source.Parser.Token (word sym)

/-- What follows the words `struct`. -/
def afterStruct : List Token → List (List Token)
  | [] => []
  | .word n :: ts => cond (Nat.beq n c!"struct") (ts :: afterStruct ts) (afterStruct ts)
  | _ :: ts => afterStruct ts

/-- The declaration that begins with the name of the struct. -/
def declaration : List Token → Option (Nat × List (Nat × Ty))
  | .word n :: .sym s :: ts => cond (Nat.beq s c!"{")
      (match decls c!"}" 100 ts with
       | some (ds, _) => some (n, ds)
       | none => none)
      none
  | _ => none

/-- The declarations, one by one. -/
def declarations : List (List Token) → Option (List (Nat × List (Nat × Ty)))
  | [] => some []
  | ts :: tss => match declaration ts, declarations tss with
    | some d, some ds => some (d :: ds)
    | _, _ => none

/-- The structs declared in a text. -/
def declared (lines : List (List Nat)) : Option (List (Nat × List (Nat × Ty))) :=
  match tokens lines with
  | some ts => declarations (afterStruct ts)
  | none => none

theorem mem_afterStruct {us ts : List Token} : us ∈ afterStruct ts ↔ ∃ ps, ts = ps ++ word c!"struct" :: us := by
  induction ts with
  | nil => simp [afterStruct]
  | cons t ts ih =>
    have key : (∃ ps, t :: ts = ps ++ word c!"struct" :: us) ↔ (t = word c!"struct" ∧ ts = us) ∨ ∃ ps, ts = ps ++ word c!"struct" :: us := by
      constructor
      · rintro ⟨ps, h⟩
        cases ps with
        | nil => cases h; exact .inl ⟨rfl, rfl⟩
        | cons p ps => cases h; exact .inr ⟨ps, rfl⟩
      · rintro (⟨rfl, rfl⟩ | ⟨ps, rfl⟩)
        · exact ⟨[], rfl⟩
        · exact ⟨t :: ps, rfl⟩
    rw [key, ← ih]
    cases t with
    | word n =>
      rw [afterStruct]
      cases hn : Nat.beq n c!"struct"
      · rw [cond_false]
        have : n ≠ c!"struct" := fun h => by rw [h, Nat.beq_refl] at hn; cases hn
        simp [this]
      · rw [cond_true, List.mem_cons, Nat.eq_of_beq_eq_true hn]
        simp [eq_comm]
    | _ => simp [afterStruct]

theorem decls_unique {us us' vs vs' : List Token} {ds ds' : List (Nat × Ty)} (h : IsDecls c!"}" us ds) (h' : IsDecls c!"}" us' ds')
    (e : us ++ vs = us' ++ vs') : ds = ds' := by
  obtain ⟨N, h⟩ := Proofs.Grammar.decls_complete (by decide) h vs
  obtain ⟨N', h'⟩ := Proofs.Grammar.decls_complete (by decide) h' vs'
  have h := h (N + N') (by omega)
  have h' := h' (N + N') (by omega)
  rw [e, h'] at h
  cases h
  rfl

/-- After the word `struct` comes the declaration. -/
theorem declaration_iff {ts : List Token} {d : Nat × List (Nat × Ty)} (h : declaration ts = some d) (n : Nat) (ds : List (Nat × Ty)) :
    (∃ us vs, ts = word n :: sym c!"{" :: (us ++ vs) ∧ IsDecls c!"}" us ds) ↔ (n, ds) = d := by
  unfold declaration at h
  split at h
  · rename_i m s ts
    cases hs : Nat.beq s c!"{"
    · rw [hs, cond_false] at h; cases h
    · rw [hs, cond_true] at h
      cases Nat.eq_of_beq_eq_true hs
      split at h
      · rename_i es rest hd
        cases h
        obtain ⟨us, rfl, hus⟩ := Proofs.Grammar.decls_some hd
        constructor
        · rintro ⟨us', vs', e, hus'⟩
          cases (List.cons.inj e).1
          rw [decls_unique hus' hus (List.cons.inj (List.cons.inj e).2).2.symm]
        · intro e
          cases e
          exact ⟨us, rest, rfl, hus⟩
      · cases h
  · cases h

theorem declarations_iff {tss : List (List Token)} {l : List (Nat × List (Nat × Ty))} (h : declarations tss = some l) (n : Nat)
    (ds : List (Nat × Ty)) : (∃ ts ∈ tss, ∃ us vs, ts = word n :: sym c!"{" :: (us ++ vs) ∧ IsDecls c!"}" us ds) ↔ (n, ds) ∈ l := by
  induction tss generalizing l with
  | nil => cases h; simp
  | cons ts tss ih =>
    rw [declarations] at h
    split at h
    · rename_i d l' h1 h2
      cases h
      simp only [List.mem_cons, exists_eq_or_imp, ih h2, declaration_iff h1]
    · cases h

theorem declared_iff {lines : List String} {codes : List (List Nat)} {l : List (Nat × List (Nat × Ty))} (he : lines.map toCodes = codes)
    (h : declared codes = some l) (n : Nat) (ds : List (Nat × Ty)) :
    (∃ ps us vs, Lexical.IsTokens (Lexical.text (lines.map toCodes)) (ps ++ word c!"struct" :: word n :: sym c!"{" :: (us ++ vs)) ∧
      IsDecls c!"}" us ds) ↔ (n, ds) ∈ l := by
  have hb : ∀ l ∈ lines.map toCodes, Proofs.Lexical.Bounded l := by
    intro l hl
    obtain ⟨s, _, rfl⟩ := List.mem_map.1 hl
    exact Proofs.Lexical.bounded_toCodes s
  unfold declared at h
  split at h
  · rename_i ts ht
    subst he
    have ht' := ((Proofs.Lexical.tokens_iff hb ts).1 ht).2
    rw [← declarations_iff h]
    constructor
    · rintro ⟨ps, us, vs, h1, h2⟩
      cases Proofs.Lexical.tokens_unique (Proofs.Lexical.bounded_text hb) ht' h1
      exact ⟨_, mem_afterStruct.2 ⟨ps, rfl⟩, us, vs, rfl, h2⟩
    · rintro ⟨us', h1, us, vs, rfl, h2⟩
      obtain ⟨ps, rfl⟩ := mem_afterStruct.1 h1
      exact ⟨ps, us, vs, ht', h2⟩
  · cases h

theorem lines_of_codes {text : List String} {codes : List (List Nat)} (h : text = codes.map ofCodes) (hc : codes.all areChars = true) :
    text.map toCodes = codes := by
  subst h
  exact map_toCodes_ofCodes hc

/-- Adds the theorem `Source.m.lines`: the lines of the text, as numbers. -/
def addLines (m : String) (text : Name) : MetaM Unit := do
  let ns := `Source ++ .mkSimple m
  let codes := mkConst (ns ++ `codes)
  let text := mkConst text
  let type ← mkEq (← mkAppM ``List.map #[mkConst ``toCodes, text]) codes
  let value := mkAppN (mkConst ``lines_of_codes) #[text, codes, ← mkEqRefl text, ← mkEqRefl (mkConst ``true)]
  addDecl (.thmDecl { name := ns ++ `lines, levelParams := [], type, value })

run_meta addLines "utils" ``Text.utils
run_meta addLines "lyra2" ``Text.lyra2
run_meta addLines "lyra2mod" ``Text.lyra2mod
run_meta addLines "cubehash" ``Text.cubehash
run_meta addLines "bmw" ``Text.bmw
run_meta addLines "lyra2re" ``Text.lyra2re
run_meta addLines "lyra2rev2" ``Text.lyra2rev2
run_meta addLines "lyra2rev3" ``Text.lyra2rev3
run_meta addLines "lyra2z" ``Text.lyra2z

/-- The struct of src/cubehash/mod.rs:38-71. -/
def cubeHash : Nat × List (Nat × Ty) :=
  (c!"CubeHash",
    [c!"x0", c!"x1", c!"x2", c!"x3", c!"x4", c!"x5", c!"x6", c!"x7", c!"x8", c!"x9", c!"xa", c!"xb", c!"xc", c!"xd", c!"xe", c!"xf",
      c!"xg", c!"xh", c!"xi", c!"xj", c!"xk", c!"xl", c!"xm", c!"xn", c!"xo", c!"xp", c!"xq", c!"xr", c!"xs", c!"xt", c!"xu", c!"xv"].map
      fun x => (x, .int .u32))

/-- The struct of src/bmw/mod.rs:45-50. -/
def bmwState : Nat × List (Nat × Ty) :=
  (c!"Bmw", [(c!"m", .array .u32 16), (c!"h", .array .u32 16), (c!"h2", .array .u32 16), (c!"q", .array .u32 32)])

theorem declared_utils : declared utils.codes = some [] := by decide +kernel
theorem declared_lyra2 : declared lyra2.codes = some [] := by decide +kernel
theorem declared_lyra2mod : declared lyra2mod.codes = some [] := by decide +kernel
theorem declared_cubehash : declared cubehash.codes = some [cubeHash] := by decide +kernel
theorem declared_bmw : declared bmw.codes = some [bmwState] := by decide +kernel
theorem declared_lyra2re : declared lyra2re.codes = some [] := by decide +kernel
theorem declared_lyra2rev2 : declared lyra2rev2.codes = some [] := by decide +kernel
theorem declared_lyra2rev3 : declared lyra2rev3.codes = some [] := by decide +kernel
theorem declared_lyra2z : declared lyra2z.codes = some [] := by decide +kernel

end Proofs.Structs

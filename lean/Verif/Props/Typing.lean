import Verif.Proofs.Retype
import Verif.Proofs.Structs
import Verif.Proofs.Typing
import Verif.Props.Grammar
import Verif.Source.Digests
import Verif.Source.Retyped

/-! Property C71: the functions of the crate are well typed by the rules of `Source/Typing.lean`, and the types in the table
`Source.inferred`, which the text does not contain, are the only ones with which they are. -/

namespace Props
open Source Source.Grammar Proofs.Typing Proofs.Retype

/-- The structs of the crate, src/cubehash/mod.rs:38-71 and src/bmw/mod.rs:45-50. -/
def structs : List (String × List (String × Ty)) :=
  [("CubeHash",
      ["x0", "x1", "x2", "x3", "x4", "x5", "x6", "x7", "x8", "x9", "xa", "xb", "xc", "xd", "xe", "xf", "xg", "xh", "xi", "xj", "xk", "xl", "xm", "xn",
        "xo", "xp", "xq", "xr", "xs", "xt", "xu", "xv"].map fun x => (x, .int .u32)),
   ("Bmw", [("m", .array .u32 16), ("h", .array .u32 16), ("h2", .array .u32 16), ("q", .array .u32 32)])]

/-- The functions of other crates that the crate calls. -/
def foreign : List String :=
  ["blake_hash::Blake256::digest", "sha3::Keccak256::digest", "skein_hash::Skein512::<U32>::digest", "groestl::Groestl256::digest"]

/-- What the functions of the crate can refer to. -/
private def scope : Items := { fns := crate.map (·.sig), structs, ext := foreign }

theorem ok_of_all {l : List Fn} (h : l.all (check scope) = true) : ∀ f ∈ l, OkFn scope f :=
  fun f hf => (check_iff scope f).1 (List.all_eq_true.1 h f hf)

/-- **C71** (i) The functions and constants of the crate are well typed, and no two have the same name. The foreign functions are the
digests. -/
theorem C71_well_typed : WellTyped crate structs foreign ∧ ∀ dg name, (digests dg name).isSome = true ↔ name ∈ foreign := by
  refine ⟨⟨?_, by decide +kernel⟩, fun dg name => ?_⟩
  · have h1 := ok_of_all (l := utils.all) (by decide +kernel)
    have h2 := ok_of_all (l := lyra2.all) (by decide +kernel)
    have h3 := ok_of_all (l := lyra2mod.all) (by decide +kernel)
    have h4 := ok_of_all (l := cubehash.all) (by decide +kernel)
    have h5 := ok_of_all (l := bmw.all) (by decide +kernel)
    have h6 := ok_of_all (l := lyra2re.all) (by decide +kernel)
    have h7 := ok_of_all (l := lyra2rev2.all) (by decide +kernel)
    have h8 := ok_of_all (l := lyra2rev3.all) (by decide +kernel)
    have h9 := ok_of_all (l := lyra2z.all) (by decide +kernel)
    intro f hf
    unfold crate at hf
    simp only [List.mem_append, or_assoc] at hf
    rcases hf with h | h | h | h | h | h | h | h | h
    · exact h1 f h
    · exact h2 f h
    · exact h3 f h
    · exact h4 f h
    · exact h5 f h
    · exact h6 f h
    · exact h7 f h
    · exact h8 f h
    · exact h9 f h
  · unfold digests foreign
    simp only [List.mem_cons, List.not_mem_nil, or_false]
    split
    · simp [*]
    · split
      · simp [*]
      · split
        · simp [*]
        · split <;> simp [*]

/-- What the types of the table `marked` stand for. -/
def unmark (tmp key ptr ptr' buf out : Ty) : Ty → Ty
  | .struct n =>
    if n = "?1" then tmp else if n = "?2" then key else if n = "?3" then ptr else if n = "?4" then ptr' else if n = "?5" then buf else out
  | t => t

section
variable (tmp key ptr ptr' buf out : Ty)

theorem table_pick (f x : Nat) : Parser.inferredTy f x (table tmp key ptr ptr' buf out) =
    pick (unmark tmp key ptr ptr' buf out) (Parser.inferredTy f x inferred) (Parser.inferredTy f x marked) := by
  unfold marked table inferred
  simp only [Parser.inferredTy]
  generalize (Nat.beq c!"squeeze" f && Nat.beq c!"tmp" x) = b1
  generalize (Nat.beq c!"squeeze" f && Nat.beq c!"out" x) = b2
  generalize (Nat.beq c!"lyra2" f && Nat.beq c!"ptr_word" x) = b3
  generalize (Nat.beq c!"lyra2mod" f && Nat.beq c!"ptr_word" x) = b4
  generalize (Nat.beq c!"sum" f && Nat.beq c!"buf" x) = b5
  generalize (Nat.beq c!"sum" f && Nat.beq c!"out" x) = b6
  cases b1
  · cases b2
    · cases b3
      · cases b4
        · cases b5
          · cases b6 <;> rfl
          · rfl
        · rfl
      · rfl
    · rfl
  · rfl

theorem file_to {mod : Nat} {lines : List String} {fns fns' fns'' : List Fn} (h : Parser.parse mod inferred lines = some fns)
    (h' : Parser.parse mod marked lines = some fns') (e : mergeFns (unmark tmp key ptr ptr' buf out) fns fns' = fns'') :
    IsFile (table tmp key ptr ptr' buf out) mod lines fns'' := by
  obtain ⟨ts, ht, hi⟩ := isFile_of_parse h
  obtain ⟨fs, a, b⟩ := items_to (table_pick tmp key ptr ptr' buf out) rfl hi
  rw [isFile_unique ⟨ts, ht, a⟩ (isFile_of_parse h')] at b
  exact ⟨ts, ht, e ▸ b⟩

end

/-- **C71** (ii) The table `inferred` is used for eight declarations, in six functions: with other types in it, whatever they are, the text
stands for the crate with these types in the declarations, and with those of `inferred` for `crate`. -/
theorem C71_places : (∀ tmp key ptr ptr' buf out fns, IsCrate (table tmp key ptr ptr' buf out) files fns ↔ fns = crateOf tmp key ptr ptr' buf out) ∧
    inferred = table (.vec .u8) (.vec .u8) (.int .usize) (.int .usize) (.vec .u8) (.vec .u8) ∧
    crate = crateOf (.vec .u8) (.vec .u8) (.int .usize) (.int .usize) (.vec .u8) (.vec .u8) := by
  have h : ∀ tmp key ptr ptr' buf out, IsCrate (table tmp key ptr ptr' buf out) files (crateOf tmp key ptr ptr' buf out) := fun _ _ _ _ _ _ =>
    .cons (file_to _ _ _ _ _ _ utils.parsed utils.marked rfl) (.cons (file_to _ _ _ _ _ _ lyra2.parsed lyra2.marked rfl)
      (.cons (file_to _ _ _ _ _ _ lyra2mod.parsed lyra2mod.marked rfl) (.cons (file_to _ _ _ _ _ _ cubehash.parsed cubehash.marked rfl)
        (.cons (file_to _ _ _ _ _ _ bmw.parsed bmw.marked rfl) (.cons (file_to _ _ _ _ _ _ lyra2re.parsed lyra2re.marked rfl)
          (.cons (file_to _ _ _ _ _ _ lyra2rev2.parsed lyra2rev2.marked rfl) (.cons (file_to _ _ _ _ _ _ lyra2rev3.parsed lyra2rev3.marked rfl)
            (.cons (file_to _ _ _ _ _ _ lyra2z.parsed lyra2z.marked rfl) .nil))))))))
  refine ⟨fun _ _ _ _ _ _ fns => ⟨fun h' => isCrate_unique h' (h _ _ _ _ _ _), fun e => e ▸ h _ _ _ _ _ _⟩, rfl, ?_⟩
  rw [← crate_eq]
  rfl

theorem sigs_modify {g : Fn → Fn} (hg : ∀ f, (g f).sig = f.sig) (l : List Fn) (i : Nat) : (l.modify i g).map (·.sig) = l.map (·.sig) := by
  induction l generalizing i with
  | nil => cases i <;> rfl
  | cons f l ih =>
    cases i with
    | zero => simp [List.modify_zero_cons, hg]
    | succ i => simp [List.modify_succ_cons, ih]

theorem sigs (tmp key ptr ptr' buf out : Ty) : (crateOf tmp key ptr ptr' buf out).map (·.sig) = crate.map (·.sig) := by
  rw [← crate_eq]
  unfold crateOf lyra2.allOf lyra2mod.allOf cubehash.allOf bmw.allOf
  simp only [List.map_append]
  rw [sigs_modify (g := Fn.retype 36 ptr) fun _ => rfl, sigs_modify (g := Fn.retype 36 ptr') fun _ => rfl,
    sigs_modify (g := Fn.retype 22 out) fun _ => rfl, sigs_modify (g := fun f => (f.retype 0 tmp).retype 1 key) fun _ => rfl,
    sigs_modify (g := fun f => (f.retype 0 tmp).retype 1 key) fun _ => rfl, sigs_modify (g := fun f => (f.retype 1 buf).retype 9 out) fun _ => rfl]

theorem squeeze_types (f : Fn) (hf : f = lyra2.squeeze ∨ f = lyra2mod.squeeze) (t t' : IntTy)
    (h : OkFn scope ((f.retype 0 (.vec t)).retype 1 (.vec t'))) : t = .u8 ∧ t' = .u8 := by
  rw [← check_iff] at h
  have key : ∀ f ∈ [lyra2.squeeze, lyra2mod.squeeze], ∀ t ∈ ints, ∀ t' ∈ ints,
      check scope ((f.retype 0 (.vec t)).retype 1 (.vec t')) = true → t = .u8 ∧ t' = .u8 := by decide +kernel
  exact key f (by simpa using hf) t (mem_ints t) t' (mem_ints t') h

theorem pointer_type (f : Fn) (hf : f = lyra2.lyra2 ∨ f = lyra2mod.lyra2mod) (t : IntTy) (h : OkFn scope (f.retype 36 (.int t))) : t = .usize := by
  rw [← check_iff] at h
  have key : ∀ f ∈ [lyra2.lyra2, lyra2mod.lyra2mod], ∀ t ∈ ints, check scope (f.retype 36 (.int t)) = true → t = .usize := by decide +kernel
  exact key f (by simpa using hf) t (mem_ints t) h

theorem cubehash_types (t t' : IntTy) (h : OkFn scope ((cubehash.sum.retype 1 (.vec t)).retype 9 (.vec t'))) : t = .u8 ∧ t' = .u8 := by
  rw [← check_iff] at h
  have key : ∀ t ∈ ints, ∀ t' ∈ ints, check scope ((cubehash.sum.retype 1 (.vec t)).retype 9 (.vec t')) = true → t = .u8 ∧ t' = .u8 := by
    decide +kernel
  exact key t (mem_ints t) t' (mem_ints t') h

/-- **C71** (iii) With other types in these declarations, functions of the crate are not well typed. -/
theorem C71_unique (tmp key ptr ptr' buf out : Ty) : WellTyped (crateOf tmp key ptr ptr' buf out) structs foreign ↔
    tmp = .vec .u8 ∧ key = .vec .u8 ∧ ptr = .int .usize ∧ ptr' = .int .usize ∧ buf = .vec .u8 ∧ out = .vec .u8 := by
  constructor
  · rintro ⟨h, -⟩
    rw [sigs] at h
    change ∀ f ∈ _, OkFn scope f at h
    have m1 : ∀ f ∈ lyra2.allOf tmp key ptr, OkFn scope f := fun f hf => h f (by unfold crateOf; simp only [List.mem_append, hf, true_or, or_true])
    have m2 : ∀ f ∈ lyra2mod.allOf tmp key ptr', OkFn scope f := fun f hf => h f (by unfold crateOf; simp only [List.mem_append, hf, true_or, or_true])
    have m3 : ∀ f ∈ cubehash.allOf buf out, OkFn scope f := fun f hf => h f (by unfold crateOf; simp only [List.mem_append, hf, true_or, or_true])
    have f1 : OkFn scope ((lyra2.squeeze.retype 0 tmp).retype 1 key) := m1 _ (List.mem_of_getElem? (i := 11) rfl)
    have f2 : OkFn scope (lyra2.lyra2.retype 36 ptr) := m1 _ (List.mem_of_getElem? (i := 14) rfl)
    have f3 : OkFn scope (lyra2mod.lyra2mod.retype 36 ptr') := m2 _ (List.mem_of_getElem? (i := 14) rfl)
    have f4 : OkFn scope ((cubehash.sum.retype 1 buf).retype 9 out) := m3 _ (List.mem_of_getElem? (i := 4) rfl)
    obtain ⟨t1, rfl⟩ := let_nil f1 (x := "tmp") (t := tmp) (List.mem_of_getElem? (i := 0) rfl)
    obtain ⟨t2, rfl⟩ := let_vec f1 (x := "out") (t := key) (m := 0) (List.mem_of_getElem? (i := 1) rfl)
    obtain ⟨t3, rfl⟩ := let_lit f2 (x := "ptr_word") (t := ptr) (n := 0) (List.mem_of_getElem? (i := 36) rfl)
    obtain ⟨t4, rfl⟩ := let_lit f3 (x := "ptr_word") (t := ptr') (n := 0) (List.mem_of_getElem? (i := 36) rfl)
    obtain ⟨t5, rfl⟩ := let_vec f4 (x := "buf") (t := buf) (m := 0) (List.mem_of_getElem? (i := 1) rfl)
    obtain ⟨t6, rfl⟩ := let_nil f4 (x := "out") (t := out) (List.mem_of_getElem? (i := 9) rfl)
    obtain ⟨rfl, rfl⟩ := squeeze_types _ (.inl rfl) t1 t2 f1
    obtain rfl := pointer_type _ (.inl rfl) t3 f2
    obtain rfl := pointer_type _ (.inr rfl) t4 f3
    obtain ⟨rfl, rfl⟩ := cubehash_types t5 t6 f4
    exact ⟨rfl, rfl, rfl, rfl, rfl, rfl⟩
  · rintro ⟨rfl, rfl, rfl, rfl, rfl, rfl⟩
    rw [← C71_places.2.2]
    exact C71_well_typed.1

/-- **C71** (iv) Whatever types the table has: if the program for which the text then stands is well typed, it is `crate`, and the table is
`inferred`. -/
theorem C71_forced (tmp key ptr ptr' buf out : Ty) (fns : List Fn) (h : IsCrate (table tmp key ptr ptr' buf out) files fns)
    (hw : WellTyped fns structs foreign) : fns = crate ∧ table tmp key ptr ptr' buf out = inferred := by
  obtain rfl := (C71_places.1 _ _ _ _ _ _ fns).1 h
  obtain ⟨rfl, rfl, rfl, rfl, rfl, rfl⟩ := (C71_unique _ _ _ _ _ _).1 hw
  exact ⟨C71_places.2.2.symm, C71_places.2.1.symm⟩

/-- The file declares the struct with the fields. -/
def DeclaresStruct (lines : List String) (name : String) (fields : List (String × Ty)) : Prop :=
  ∃ ps n us vs ds, Lexical.IsTokens (characters lines) (ps ++ .word c!"struct" :: .word n :: .sym c!"{" :: (us ++ vs)) ∧ IsDecls c!"}" us ds ∧
    decode n = name ∧ Parser.decodeFields ds = fields

theorem declaresStruct_iff {lines : List String} {codes : List (List Nat)} {l : List (Nat × List (Nat × Ty))} (he : lines.map toCodes = codes)
    (h : Proofs.Structs.declared codes = some l) (name : String) (fields : List (String × Ty)) :
    DeclaresStruct lines name fields ↔ (name, fields) ∈ l.map fun d => (decode d.1, Parser.decodeFields d.2) := by
  rw [List.mem_map]
  constructor
  · rintro ⟨ps, n, us, vs, ds, h1, h2, rfl, rfl⟩
    exact ⟨(n, ds), (Proofs.Structs.declared_iff he h n ds).1 ⟨ps, us, vs, h1, h2⟩, rfl⟩
  · rintro ⟨⟨n, ds⟩, hm, e⟩
    cases e
    obtain ⟨ps, us, vs, h1, h2⟩ := (Proofs.Structs.declared_iff he h n ds).2 hm
    exact ⟨ps, n, us, vs, ds, h1, h2, rfl, rfl⟩

/-- **C71** (v) The structs of the table are those that the files declare. -/
theorem C71_structs (name : String) (fields : List (String × Ty)) :
    (name, fields) ∈ structs ↔ ∃ mod lines, (mod, lines) ∈ files ∧ DeclaresStruct lines name fields := by
  have hs : [Proofs.Structs.cubeHash, Proofs.Structs.bmwState].map (fun d => (decode d.1, Parser.decodeFields d.2)) = structs := by decide +kernel
  rw [← hs]
  open Proofs.Structs in
  simp only [files, List.mem_cons, List.not_mem_nil, or_false, Prod.mk.injEq, or_and_right, exists_or, and_assoc, exists_and_left, exists_eq_left,
    declaresStruct_iff utils.lines declared_utils, declaresStruct_iff lyra2.lines declared_lyra2,
    declaresStruct_iff lyra2mod.lines declared_lyra2mod, declaresStruct_iff cubehash.lines declared_cubehash,
    declaresStruct_iff bmw.lines declared_bmw, declaresStruct_iff lyra2re.lines declared_lyra2re,
    declaresStruct_iff lyra2rev2.lines declared_lyra2rev2, declaresStruct_iff lyra2rev3.lines declared_lyra2rev3,
    declaresStruct_iff lyra2z.lines declared_lyra2z]
  simp only [List.map_nil, List.not_mem_nil, List.map_cons, List.mem_cons, or_false, false_or]

/-- A text with the word `struct` in a comment and a declaration: it declares one struct. -/
example (name : String) (fields : List (String × Ty)) : DeclaresStruct ["// struct A { x: u8 }", "struct B { y: u64 }"] name fields ↔
    name = "B" ∧ fields = [("y", .int .u64)] := by
  have he : ["// struct A { x: u8 }", "struct B { y: u64 }"].map toCodes = [toCodes "// struct A { x: u8 }", toCodes "struct B { y: u64 }"] := rfl
  rw [declaresStruct_iff (l := [(c!"B", [(c!"y", .int .u64)])]) he (by decide +kernel), List.map_cons, List.map_nil, List.mem_singleton,
    Prod.mk.injEq]
  rw [show decode c!"B" = "B" by decide +kernel, show Parser.decodeFields [(c!"y", .int .u64)] = [("y", .int .u64)] by decide +kernel]

private def none' : Items := { fns := [], structs := [], ext := [] }

/-- A function that adds numbers of different types, one with a literal that is too large, and one with a `break` outside of a loop. -/
example :
    ¬ OkFn none' ⟨"f", [("a", .int .u32), ("b", .int .u64)], .int .u64, [], .bin .add (.var "a") (.var "b"), false⟩ ∧
    ¬ OkFn none' ⟨"f", [("a", .int .u8)], .int .u8, [], .bin .and (.var "a") (.lit 256), false⟩ ∧
    ¬ OkFn none' ⟨"f", [("a", .int .u8)], .int .u8, [.break], .var "a", false⟩ ∧
    OkFn none' ⟨"f", [("a", .int .u32), ("b", .int .u64)], .int .u64, [], .bin .add (.cast (.var "a") .u64) (.var "b"), false⟩ := by
  simp only [← check_iff]
  decide +kernel

end Props

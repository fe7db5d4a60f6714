import Verif.Props.Grammar
import Verif.Props.ConstantTime32

/-! Property C70: the functions that other crates can call, and what every call of them does. -/

namespace Props
open Rust Source Source.Grammar Source.Lexical
open Model.Chains (Digests)
open Source.Parser (Token)
open Source.Parser.Token (word sym)

/-- The modules of the crate, and whether they are public: what src/lib.rs declares. -/
def HasModules (ms : List (Nat × Bool)) : Prop := ∃ ts, IsTokens (characters Text.lib) ts ∧ IsModules ts ms

/-- The function is declared `pub` in the file of a public module, so that other crates can call it. -/
def IsPublic (f : Fn) : Prop :=
  ∃ ms mod lines fns, HasModules ms ∧ (mod, true) ∈ ms ∧ (mod, lines) ∈ files ∧ IsFile inferred mod lines fns ∧ f ∈ fns ∧ f.exported = true

/-- The lines of src/lib.rs, as numbers. -/
def libCodes : List (List Nat) :=
  [[c!"m", c!"o", c!"d", c!" ", c!"b", c!"m", c!"w", c!";"],
   [c!"m", c!"o", c!"d", c!" ", c!"c", c!"u", c!"b", c!"e", c!"h", c!"a", c!"s", c!"h", c!";"],
   [c!"m", c!"o", c!"d", c!" ", c!"l", c!"y", c!"r", c!"a", c!"2", c!"m", c!"o", c!"d", c!";"],
   [c!"m", c!"o", c!"d", c!" ", c!"u", c!"t", c!"i", c!"l", c!"s", c!";"],
   [c!"p", c!"u", c!"b", c!" ", c!"m", c!"o", c!"d", c!" ", c!"l", c!"y", c!"r", c!"a", c!"2", c!";"],
   [c!"p", c!"u", c!"b", c!" ", c!"m", c!"o", c!"d", c!" ", c!"l", c!"y", c!"r", c!"a", c!"2", c!"z", c!";"],
   [c!"p", c!"u", c!"b", c!" ", c!"m", c!"o", c!"d", c!" ", c!"l", c!"y", c!"r", c!"a", c!"2", c!"r", c!"e", c!";"],
   [c!"p", c!"u", c!"b", c!" ", c!"m", c!"o", c!"d", c!" ", c!"l", c!"y", c!"r", c!"a", c!"2", c!"r", c!"e", c!"v", c!"2", c!";"],
   [c!"p", c!"u", c!"b", c!" ", c!"m", c!"o", c!"d", c!" ", c!"l", c!"y", c!"r", c!"a", c!"2", c!"r", c!"e", c!"v", c!"3", c!";"],
   []]

/-- The modules that src/lib.rs declares. -/
def modules : List (Nat × Bool) :=
  [(c!"bmw", false), (c!"cubehash", false), (c!"lyra2mod", false), (c!"utils", false), (c!"lyra2", true), (c!"lyra2z", true),
   (c!"lyra2re", true), (c!"lyra2rev2", true), (c!"lyra2rev3", true)]

theorem isModules_inv {us : List Token} {ms : List (Nat × Bool)} (h : IsModules us ms) :
    (us = [] ∧ ms = []) ∨
      (∃ n ts ms', us = word c!"mod" :: word n :: sym c!";" :: ts ∧ ms = (n, false) :: ms' ∧ IsModules ts ms') ∨
      ∃ n ts ms', us = word c!"pub" :: word c!"mod" :: word n :: sym c!";" :: ts ∧ ms = (n, true) :: ms' ∧ IsModules ts ms' := by
  cases h with
  | nil => exact .inl ⟨rfl, rfl⟩
  | cons hp h =>
    cases hp with
    | no => exact .inr (.inl ⟨_, _, _, rfl, rfl, h⟩)
    | yes => exact .inr (.inr ⟨_, _, _, rfl, rfl, h⟩)

theorem isModules_unique {ts : List Token} {ms ms' : List (Nat × Bool)} (h : IsModules ts ms) (h' : IsModules ts ms') : ms = ms' := by
  induction h generalizing ms' with
  | nil =>
    rcases isModules_inv h' with ⟨_, rfl⟩ | ⟨_, _, _, h, _⟩ | ⟨_, _, _, h, _⟩
    · rfl
    · cases h
    · cases h
  | cons hp _ ih =>
    cases hp with
    | no =>
      rcases isModules_inv h' with ⟨h, _⟩ | ⟨_, _, _, h, rfl, h'⟩ | ⟨_, _, _, h, _⟩
      · cases h
      · cases h; rw [ih h']
      · cases h
    | yes =>
      rcases isModules_inv h' with ⟨h, _⟩ | ⟨_, _, _, h, _⟩ | ⟨_, _, _, h, rfl, h'⟩
      · cases h
      · cases h
      · cases h; rw [ih h']

theorem hasModules : HasModules modules := by
  have hl : Text.lib.map toCodes = libCodes := by
    rw [show Text.lib = libCodes.map ofCodes from rfl, map_toCodes_ofCodes rfl]
  refine ⟨_, ((Proofs.Lexical.tokens_iff (bounded_lines Text.lib) _).1 (by rw [hl]; rfl)).2, ?_⟩
  exact .cons .no (.cons .no (.cons .no (.cons .no (.cons .yes (.cons .yes (.cons .yes (.cons .yes (.cons .yes .nil))))))))

/-- **C70** (i) By the rules, src/lib.rs declares these modules and no others, and they are the ones whose files make up the crate. -/
theorem C70_modules (ms : List (Nat × Bool)) : (HasModules ms ↔ ms = modules) ∧ ∀ mod, mod ∈ modules.map (·.1) ↔ mod ∈ files.map (·.1) := by
  refine ⟨⟨fun ⟨ts, ht, hm⟩ => ?_, fun h => h ▸ hasModules⟩, fun mod => ?_⟩
  · obtain ⟨ts', ht', hm'⟩ := hasModules
    cases Proofs.Lexical.tokens_unique (Proofs.Lexical.bounded_text (bounded_lines Text.lib)) ht ht'
    exact isModules_unique hm hm'
  · have : (modules.map (·.1)).Perm (files.map (·.1)) := by decide
    exact this.mem_iff

/-- The functions of the public interface. -/
def interface : List Fn := [lyra2.lyra2, lyra2.sum, lyra2re.sum, lyra2rev2.sum, lyra2rev3.sum, lyra2z.sum]

theorem exported_of {mod : Nat} {lines : List String} {all out : List Fn} (h : Parser.parse mod inferred lines = some all)
    (ho : all.filter (·.exported) = out) (f : Fn) : (∃ fns, IsFile inferred mod lines fns ∧ f ∈ fns ∧ f.exported = true) ↔ f ∈ out := by
  rw [← ho, List.mem_filter]
  exact ⟨fun ⟨_, hf, h1, h2⟩ => isFile_unique hf (isFile_of_parse h) ▸ ⟨h1, h2⟩, fun ⟨h1, h2⟩ => ⟨all, isFile_of_parse h, h1, h2⟩⟩

/-- **C70** (ii) Other crates can call these six functions and no others. -/
theorem C70_public (f : Fn) : IsPublic f ↔ f ∈ interface := by
  have e1 := exported_of lyra2.parsed (out := [lyra2.lyra2, lyra2.sum]) rfl f
  have e2 := exported_of lyra2re.parsed (out := [lyra2re.sum]) rfl f
  have e3 := exported_of lyra2rev2.parsed (out := [lyra2rev2.sum]) rfl f
  have e4 := exported_of lyra2rev3.parsed (out := [lyra2rev3.sum]) rfl f
  have e5 := exported_of lyra2z.parsed (out := [lyra2z.sum]) rfl f
  have hi : f ∈ interface ↔ f ∈ [lyra2.lyra2, lyra2.sum] ∨ f ∈ [lyra2re.sum] ∨ f ∈ [lyra2rev2.sum] ∨ f ∈ [lyra2rev3.sum] ∨ f ∈ [lyra2z.sum] := by
    rw [← List.mem_append, ← List.mem_append, ← List.mem_append, ← List.mem_append]
    exact Iff.rfl
  rw [hi, ← e1, ← e2, ← e3, ← e4, ← e5]
  constructor
  · rintro ⟨ms, mod, lines, fns, hm, hmod, hf, h⟩
    cases ((C70_modules ms).1.1 hm)
    unfold files at hf
    simp only [List.mem_cons, List.not_mem_nil, or_false, Prod.mk.injEq] at hf
    rcases hf with ⟨rfl, rfl⟩ | ⟨rfl, rfl⟩ | ⟨rfl, rfl⟩ | ⟨rfl, rfl⟩ | ⟨rfl, rfl⟩ | ⟨rfl, rfl⟩ | ⟨rfl, rfl⟩ | ⟨rfl, rfl⟩ | ⟨rfl, rfl⟩
    · exact absurd hmod (by decide)
    · exact .inl ⟨fns, h⟩
    · exact absurd hmod (by decide)
    · exact absurd hmod (by decide)
    · exact absurd hmod (by decide)
    · exact .inr (.inl ⟨fns, h⟩)
    · exact .inr (.inr (.inl ⟨fns, h⟩))
    · exact .inr (.inr (.inr (.inl ⟨fns, h⟩)))
    · exact .inr (.inr (.inr (.inr ⟨fns, h⟩)))
  · have key {mod : Nat} {lines : List String} (h1 : (mod, true) ∈ modules) (h2 : (mod, lines) ∈ files) :
        (∃ fns, IsFile inferred mod lines fns ∧ f ∈ fns ∧ f.exported = true) → IsPublic f :=
      fun ⟨fns, h⟩ => ⟨modules, mod, lines, fns, hasModules, h1, h2, h⟩
    rintro (h | h | h | h | h)
    · exact key (by decide) (by simp [files]) h
    · exact key (by decide) (by simp [files]) h
    · exact key (by decide) (by simp [files]) h
    · exact key (by decide) (by simp [files]) h
    · exact key (by decide) (by simp [files]) h

/-- **C70** (iii) Their names, parameters and results. -/
theorem C70_signatures : interface.map (fun f => (f.name, f.params, f.ret)) =
    [("lyra2::lyra2", [("k", .int .u64), ("pwd", .vec .u8), ("salt", .vec .u8), ("time_cost", .int .u64), ("n_rows", .int .u64), ("n_cols", .int .u64)],
        .vec .u8),
     ("lyra2::sum", [("input", .vec .u8)], .vec .u8), ("lyra2re::sum", [("input", .vec .u8)], .vec .u8),
     ("lyra2rev2::sum", [("input", .vec .u8)], .vec .u8), ("lyra2rev3::sum", [("input", .vec .u8)], .vec .u8),
     ("lyra2z::sum", [("input", .vec .u8)], .vec .u8)] := rfl

/-- The values of a type. A vector has at most `isize::MAX` bytes. Arrays and structs do not occur in the interface. -/
inductive IsOf (u : Nat) : Ty → Val → Prop
  | u8 (x : U8) : IsOf u (.int .u8) (.u8 x)
  | u32 (x : U32) : IsOf u (.int .u32) (.u32 x)
  | u64 (x : U64) : IsOf u (.int .u64) (.u64 x)
  | i64 (x : I64) : IsOf u (.int .i64) (.i64 x)
  | usize (x : U64) : x.toNat < 2 ^ u → IsOf u (.int .usize) (.usize x)
  | bytes (xs : List U8) : xs.length ≤ maxBytes u → IsOf u (.vec .u8) (.bytes xs)
  | words32 (xs : Array U32) : 4 * xs.size ≤ maxBytes u → IsOf u (.vec .u32) (.words32 xs)
  | words64 (xs : Array U64) : 8 * xs.size ≤ maxBytes u → IsOf u (.vec .u64) (.words64 xs)

/-- The arguments have the types of the parameters. -/
inductive AreOf (u : Nat) : List (String × Ty) → List Val → Prop
  | nil : AreOf u [] []
  | cons {x : String} {t : Ty} {ps : List (String × Ty)} {v : Val} {vs : List Val} : IsOf u t v → AreOf u ps vs → AreOf u ((x, t) :: ps) (v :: vs)

/-- A run returns bytes or panics for one of the reasons of C61. -/
def Settled (p : Profile) (r : Res Val) : Prop := (∃ out, r.Returns (.bytes out)) ∨ ∃ e, r = throw e ∧ (e = .explicit ∨ Reason p e)

theorem settled_of {p : Profile} {m : Res (List U8)} (hd : ¬ m.Diverges) (hr : ∀ e, bytesOf m = throw e → e = .explicit ∨ Reason p e) :
    Settled p (bytesOf m) := by
  match m, hd, hr with
  | some (.ok xs), _, _ => exact .inl ⟨xs, rfl⟩
  | some (.error e), _, hr => exact .inr ⟨e, rfl, hr e rfl⟩
  | none, hd, _ => exact (hd rfl).elim

theorem not_diverges_lyra2 (u : Nat) (hu : u = 32 ∨ u = 64) (p : Profile) (k T R C : U64) (pwd salt : List U8) :
    ¬ (Model.Target.lyra2 u p k pwd salt T R C).Diverges := by
  rcases hu with rfl | rfl
  · exact (C52_lyra2_domain p k T R C pwd salt).2
  · rw [C52_usize64.1]
    exact (C04_never_diverges p k T R C pwd salt).1

theorem settled_lyra2 (u : Nat) (hu : u = 32 ∨ u = 64) (p : Profile) (ext : String → Option (List U8 → List U8)) (depth : Nat) (hd : 6 ≤ depth)
    (k T R C : U64) (pwd salt : List U8) (hp : pwd.length ≤ maxBytes u) (hs : salt.length ≤ maxBytes u) :
    Settled p (call crate ext u p depth "lyra2::lyra2" [.u64 k, .bytes pwd, .bytes salt, .u64 T, .u64 R, .u64 C]) := by
  have e := (C63_lyra2 u hu p ext depth hd k T R C pwd salt hp hs).1
  rw [e]
  exact settled_of (not_diverges_lyra2 u hu p k T R C pwd salt) fun x h =>
    (C63_reasons u hu p ext depth hd k T R C pwd salt hp hs x _ (.inl rfl) (e.trans h)).2

theorem mem_interface {f : Fn} (h : f ∈ interface) :
    f = lyra2.lyra2 ∨ f = lyra2.sum ∨ f = lyra2re.sum ∨ f = lyra2rev2.sum ∨ f = lyra2rev3.sum ∨ f = lyra2z.sum := by
  simpa [interface] using h

theorem chain_returns (u : Nat) (hu : u = 32 ∨ u = 64) (p : Profile) (dg : Digests) (hb : Bytes32 dg) (depth : Nat) (hd : 8 ≤ depth) (input : List U8)
    (name : String) (hn : name ∈ ["lyra2re::sum", "lyra2rev2::sum", "lyra2rev3::sum", "lyra2z::sum"]) :
    ∃ out, (call crate (digests dg) u p depth name [.bytes input]).Returns (.bytes out) ∧ out.length = 32 := by
  have h : (call crate (digests dg) u p depth "lyra2re::sum" [.bytes input]).Returns
        (.bytes (Spec.Chains.lyra2re dg.blake256 dg.keccak256 dg.skein512_256 dg.groestl256 input)) ∧
      (call crate (digests dg) u p depth "lyra2rev2::sum" [.bytes input]).Returns
        (.bytes (Spec.Chains.lyra2rev2 dg.blake256 dg.keccak256 dg.skein512_256 input)) ∧
      (call crate (digests dg) u p depth "lyra2rev3::sum" [.bytes input]).Returns (.bytes (Spec.Chains.lyra2rev3 dg.blake256 input)) ∧
      (call crate (digests dg) u p depth "lyra2z::sum" [.bytes input]).Returns (.bytes (Spec.Chains.lyra2z dg.blake256 input)) := by
    rcases hu with rfl | rfl
    · exact C63_chain_results p dg hb depth hd input
    · exact C60_chains p dg hb depth hd input
  have len {m : Res (List U8)} {xs : List U8} (h1 : m.Returns xs) (h2 : ∃ out, m.Returns out ∧ out.length = 32) : xs.length = 32 := by
    obtain ⟨out, ho, hl⟩ := h2
    unfold Res.Returns at h1 ho
    rw [Res.pure_inj (h1.symm.trans ho), hl]
  simp only [List.mem_cons, List.not_mem_nil, or_false] at hn
  rcases hn with rfl | rfl | rfl | rfl
  · exact ⟨_, h.1, len (C38_lyra2re p dg hb input) (C34_lyra2re_total p dg hb input)⟩
  · exact ⟨_, h.2.1, len (C38_lyra2rev2 p dg hb input) (C35_lyra2rev2_total p dg hb input)⟩
  · exact ⟨_, h.2.2.1, len (C38_lyra2rev3 p dg hb input) (C36_lyra2rev3_total p dg hb input)⟩
  · exact ⟨_, h.2.2.2, len (C38_lyra2z p dg hb input) (C37_lyra2z_total p dg hb input)⟩

theorem one_arg {u : Nat} {x : String} {args : List Val} (h : AreOf u [(x, .vec .u8)] args) : ∃ xs, args = [.bytes xs] ∧ xs.length ≤ maxBytes u := by
  cases h with
  | cons h1 h2 =>
    cases h2
    cases h1 with
    | bytes xs h => exact ⟨xs, rfl, h⟩

/-- **C70** (iv) Every call of a public function with arguments of its types, on 32-bit and 64-bit targets and in both build profiles,
returns bytes or panics for a reason of C61: the documented checks, an index out of bounds, a failed allocation, an overflow with checks. No
call runs forever. -/
theorem C70_calls (u : Nat) (hu : u = 32 ∨ u = 64) (p : Profile) (dg : Digests) (hb : Bytes32 dg) (depth : Nat) (hd : 8 ≤ depth) (f : Fn)
    (hf : IsPublic f) (args : List Val) (ha : AreOf u f.params args) : Settled p (call crate (digests dg) u p depth f.name args) := by
  have chain (input : List U8) (name : String) (hn : name ∈ ["lyra2re::sum", "lyra2rev2::sum", "lyra2rev3::sum", "lyra2z::sum"]) :
      Settled p (call crate (digests dg) u p depth name [.bytes input]) :=
    .inl ((chain_returns u hu p dg hb depth hd input name hn).imp fun _ h => h.1)
  rcases mem_interface ((C70_public f).1 hf) with rfl | rfl | rfl | rfl | rfl | rfl
  · change AreOf u [("k", .int .u64), ("pwd", .vec .u8), ("salt", .vec .u8), ("time_cost", .int .u64), ("n_rows", .int .u64), ("n_cols", .int .u64)] args at ha
    cases ha with | cons h1 ha =>
    cases ha with | cons h2 ha =>
    cases ha with | cons h3 ha =>
    cases ha with | cons h4 ha =>
    cases ha with | cons h5 ha =>
    cases ha with | cons h6 ha =>
    cases ha
    cases h1 with | u64 k =>
    cases h2 with | bytes pwd hp =>
    cases h3 with | bytes salt hs =>
    cases h4 with | u64 T =>
    cases h5 with | u64 R =>
    cases h6 with | u64 C =>
    exact settled_lyra2 u hu p _ depth (by omega) k T R C pwd salt hp hs
  · obtain ⟨input, rfl, hi⟩ := one_arg ha
    change Settled p (call crate (digests dg) u p depth "lyra2::sum" [.bytes input])
    have e := (C63_sums u hu p (digests dg) depth (by omega) input hi).1
    have e' := (C63_lyra2 u hu p (digests dg) depth (by omega) 32 1 4 4 input input hi hi).1
    rw [e]
    unfold Model.Target.sum
    rw [← e']
    exact settled_lyra2 u hu p _ depth (by omega) 32 1 4 4 input input hi hi
  · obtain ⟨input, rfl, -⟩ := one_arg ha
    exact chain input _ (by decide)
  · obtain ⟨input, rfl, -⟩ := one_arg ha
    exact chain input _ (by decide)
  · obtain ⟨input, rfl, -⟩ := one_arg ha
    exact chain input _ (by decide)
  · obtain ⟨input, rfl, -⟩ := one_arg ha
    exact chain input _ (by decide)

/-- **C70** (v) The public functions other than those of the module `lyra2` return 32 bytes for every argument. -/
theorem C70_total (u : Nat) (hu : u = 32 ∨ u = 64) (p : Profile) (dg : Digests) (hb : Bytes32 dg) (depth : Nat) (hd : 8 ≤ depth) (f : Fn)
    (hf : IsPublic f) (hn : f ≠ lyra2.lyra2 ∧ f ≠ lyra2.sum) (args : List Val) (ha : AreOf u f.params args) :
    ∃ out, (call crate (digests dg) u p depth f.name args).Returns (.bytes out) ∧ out.length = 32 := by
  rcases mem_interface ((C70_public f).1 hf) with rfl | rfl | rfl | rfl | rfl | rfl
  · exact (hn.1 rfl).elim
  · exact (hn.2 rfl).elim
  all_goals
    obtain ⟨input, rfl, -⟩ := one_arg ha
    exact chain_returns u hu p dg hb depth hd input _ (by decide)

/-- Arguments of the types of `lyra2`. -/
example : AreOf 32 lyra2.lyra2.params [.u64 32, .bytes [97, 98, 99], .bytes [], .u64 1, .u64 4, .u64 4] :=
  .cons (.u64 _) (.cons (.bytes _ (by decide)) (.cons (.bytes _ (by decide)) (.cons (.u64 _) (.cons (.u64 _) (.cons (.u64 _) .nil)))))

example : IsPublic lyra2.lyra2 ∧ ¬ IsPublic lyra2mod.lyra2mod ∧ ¬ IsPublic lyra2.squeeze := by
  refine ⟨(C70_public _).2 (.head _), fun h => ?_, fun h => ?_⟩
  · have := List.mem_map_of_mem (f := (·.name)) ((C70_public _).1 h)
    exact absurd this (by decide)
  · have := List.mem_map_of_mem (f := (·.name)) ((C70_public _).1 h)
    exact absurd this (by decide)

end Props

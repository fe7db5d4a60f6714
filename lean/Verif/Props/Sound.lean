import Verif.Proofs.Sound
import Verif.Proofs.SrcSponge
import Verif.Props.Chains
import Verif.Props.Typing

/-! Property C72: a well-typed program of the fragment computes values of the declared types, among them the crate. -/

namespace Props
open Source Rust Proofs.Sound Proofs.Typing

/-- A name stands for one thing: two structs differ in their names, and so do the functions of the program, the foreign functions and
`Vec::with_capacity`. -/
structure Distinct (fns : List Fn) (structs : List (String × List (String × Ty))) (ext : List String) : Prop where
  structs : (structs.map (·.1)).Nodup
  fns : ("Vec::with_capacity" :: ext ++ fns.map (·.name)).Nodup

theorem pairs_unique {α β : Type} {l : List (α × β)} (h : (l.map (·.1)).Nodup) {a : α} {b b' : β} (h1 : (a, b) ∈ l) (h2 : (a, b') ∈ l) :
    b = b' := by
  induction l with
  | nil => cases h1
  | cons x l ih =>
    rw [List.map_cons, List.nodup_cons] at h
    rcases List.mem_cons.1 h1 with rfl | h3 <;> rcases List.mem_cons.1 h2 with h2 | h2
    · cases h2; rfl
    · exact absurd (List.mem_map_of_mem (f := (·.1)) h2) h.1
    · subst h2
      exact absurd (List.mem_map.2 ⟨_, h3, rfl⟩) h.1
    · exact ih h.2 h3 h2

theorem okBlock_append {S : Items} {b : Bool} (ss : List Stmt) {rest : List Stmt} {g g' : Types} (h : OkBlock S b g (ss ++ rest) g') :
    ∃ g1, OkBlock S b g ss g1 ∧ OkBlock S b g1 rest g' := by
  induction ss generalizing g with
  | nil => exact ⟨g, by rw [OkBlock], h⟩
  | cons s ss ih =>
    rw [List.cons_append, OkBlock] at h
    obtain ⟨g1, h1, h2⟩ := h
    obtain ⟨g2, h3, h4⟩ := ih h2
    exact ⟨g2, by rw [OkBlock]; exact ⟨g1, h1, h3⟩, h4⟩

theorem names_of_distinct {fns : List Fn} {structs : List (String × List (String × Ty))} {ext : List String} (h : Distinct fns structs ext) :
    Names { fns := fns.map (·.sig), structs, ext } := by
  have hn := h.fns
  rw [List.cons_append, List.nodup_cons, List.mem_append, not_or] at hn
  refine ⟨fun n ds ds' h1 h2 => pairs_unique h.structs h1 h2, fun d hd he => ?_, fun x hx he => hn.1.1 (he ▸ hx)⟩
  obtain ⟨f, hf, rfl⟩ := List.mem_map.1 hd
  exact hn.1.2 (List.mem_map.2 ⟨f, hf, he⟩)

theorem find_of_mem {fns : List Fn} (h : (fns.map (·.name)).Nodup) {f : Fn} (hf : f ∈ fns) : fns.find? (·.name = f.name) = some f := by
  induction fns with
  | nil => cases hf
  | cons x l ih =>
    rw [List.map_cons, List.nodup_cons] at h
    rcases List.mem_cons.1 hf with rfl | hf
    · rw [List.find?_cons_of_pos (by simp)]
    · rw [List.find?_cons_of_neg, ih h.2 hf]
      intro he
      exact h.1 (List.mem_map.2 ⟨f, hf, (of_decide_eq_true he).symm⟩)

theorem callsOf {fns : List Fn} {structs : List (String × List (String × Ty))} {ext : List String} (hw : WellTyped fns structs ext)
    (hd : Distinct fns structs ext) (ex : String → Option (List U8 → List U8)) {u : Nat} (hu : 32 ≤ u)
    (hx : ∀ x h, ex x = some h → ∀ xs, (h xs).length ≤ maxBytes u) (p : Profile) (depth : Nat) :
    CallsOf { fns := fns.map (·.sig), structs, ext } { u, p, call := call fns ex u p depth } := by
  induction depth with
  | zero => exact ⟨hu, fun _ _ _ _ => by simp only [call]; exact .none, fun _ _ _ _ => by simp only [call]; exact .none⟩
  | succ d ih =>
    refine ⟨hu, fun s hs vs hv => ?_, fun x hx' vs hv => ?_⟩
    · obtain ⟨f, hf, rfl⟩ := List.mem_map.1 hs
      have he : call fns ex u p (d + 1) f.name vs = runFn { u, p, call := call fns ex u p d } f vs := by
        simp only [call, find_of_mem hw.2 hf]
      intro w hw'
      exact runFn_isOf (names_of_distinct hd) ih (hw.1 f hf) vs hv w (he.symm.trans hw')
    · have hn := hd.fns
      rw [List.cons_append, List.nodup_cons] at hn
      have he : fns.find? (·.name = x) = none := by
        rw [List.find?_eq_none]
        intro f hf he
        exact (List.nodup_append.1 hn.2).2.2 x hx' f.name (List.mem_map_of_mem hf) (of_decide_eq_true he).symm
      simp only [call, he]
      split
      · rename_i h xs hh
        refine .pure ?_
        simp only [Val.IsOf, true_or, and_true]
        exact hx _ _ hh _
      · exact .stuck

/-- **C72** (i) For every well-typed program of the fragment, on targets on which `usize` has 32 bits or more, in both profiles, whatever the
foreign functions compute (at most `isize::MAX` bytes): a call of a function with arguments of the types of its parameters that returns,
returns a value of the declared type. An array has the length that its type says; a struct has the declared fields, with values of their
types; a number of type `usize` is below `2 ^ u`; bytes are at most `isize::MAX` many. -/
theorem C72_sound (fns : List Fn) (structs : List (String × List (String × Ty))) (ext : List String) (hw : WellTyped fns structs ext)
    (hd : Distinct fns structs ext) (ex : String → Option (List U8 → List U8)) (u : Nat) (hu : 32 ≤ u)
    (hx : ∀ x h, ex x = some h → ∀ xs, (h xs).length ≤ maxBytes u) (p : Profile) (depth : Nat) (f : Fn) (hf : f ∈ fns)
    (args : List Val) (ha : ValsOf u structs args (f.params.map (·.2))) (v : Val) (h : call fns ex u p depth f.name args = pure v) :
    v.IsOf u structs (.ty f.ret) :=
  (callsOf hw hd ex hu hx p depth).fns f.sig (List.mem_map_of_mem hf) args ha v h

/-- **C72** (ii) So have the local variables, wherever one stops in the body of a function: after the statements `ss`, with which the
body begins, they have types with which the statements and the rest of the body are well typed. -/
theorem C72_locals (fns : List Fn) (structs : List (String × List (String × Ty))) (ext : List String) (hw : WellTyped fns structs ext)
    (hd : Distinct fns structs ext) (ex : String → Option (List U8 → List U8)) (u : Nat) (hu : 32 ≤ u)
    (hx : ∀ x h, ex x = some h → ∀ xs, (h xs).length ≤ maxBytes u) (p : Profile) (depth : Nat) (f : Fn) (hf : f ∈ fns)
    (args : List Val) (ha : ValsOf u structs args (f.params.map (·.2))) (ss rest : List Stmt) (hb : f.body = ss ++ rest) (start env : Env)
    (hs : bindArgs f.params args = pure start) (h : execBlock { u, p, call := call fns ex u p depth } ss start = pure (.next env)) :
    ∃ g g', OkBlock { fns := fns.map (·.sig), structs, ext } false (f.params.map fun x => (x.1, .ty x.2)) ss g ∧
      OkBlock { fns := fns.map (·.sig), structs, ext } false g rest g' ∧ env.IsOf u structs g := by
  have hc := callsOf hw hd ex hu hx p depth
  obtain ⟨g', k, hok, -, -⟩ := hw.1 f hf
  rw [hb] at hok
  obtain ⟨g, h1, h2⟩ := okBlock_append ss hok
  have h0 := bindArgs_isOf (c := { u, p, call := call fns ex u p depth }) (S := { fns := fns.map (·.sig), structs, ext }) hu f.params args ha
    start hs
  exact ⟨g, g', h1, h2, execBlock_isOf (names_of_distinct hd) hc ss false _ g start h1 h0 _ h⟩

/-- **C72** (iii) The crate is such a program. -/
theorem C72_crate : WellTyped crate structs foreign ∧ Distinct crate structs foreign ∧
    ∀ (dg : Model.Chains.Digests) (u : Nat) (p : Profile) (depth : Nat) (f : Fn) (args : List Val) (v : Val), Bytes32 dg → 32 ≤ u →
      f ∈ crate → ValsOf u structs args (f.params.map (·.2)) → call crate (digests dg) u p depth f.name args = pure v → v.IsOf u structs (.ty f.ret) := by
  have hd : Distinct crate structs foreign := ⟨by decide +kernel, by decide +kernel⟩
  refine ⟨C71_well_typed.1, hd, fun dg u p depth f args v hb hu hf ha h => ?_⟩
  refine C72_sound crate structs foreign C71_well_typed.1 hd (digests dg) u hu ?_ p depth f hf args ha v h
  intro x h hx xs
  have : 2 ^ 31 ≤ 2 ^ (u - 1) := Nat.pow_le_pow_right (by omega) (by omega)
  have h32 : (h xs).length = 32 := by
    unfold digests at hx
    split at hx
    · cases hx; exact hb.blake256 xs
    · split at hx
      · cases hx; exact hb.keccak256 xs
      · split at hx
        · cases hx; exact hb.skein512_256 xs
        · split at hx
          · cases hx; exact hb.groestl256 xs
          · cases hx
  rw [h32]
  unfold maxBytes
  omega

/-- **C72** (iv) A literal has a type when it has a value where this type is required, namely its number. -/
theorem C72_literals (S : Items) (g : Types) (c : Ctx) (env : Env) (n : Nat) (t : IntTy) :
    (HasType S g (.lit n) (.int t) ↔ ∃ v, eval c env (some (.int t)) (.lit n) = pure v) ∧
    ∀ v, eval c env (some (.int t)) (.lit n) = pure v →
      v = match t with
        | .u8 => .u8 (BitVec.ofNat 8 n)
        | .u32 => .u32 (BitVec.ofNat 32 n)
        | .u64 => .u64 (BitVec.ofNat 64 n)
        | .i64 => .i64 (BitVec.ofNat 64 n)
        | .usize => .usize (BitVec.ofNat 64 n) := by
  have h0 : HasType S g (.lit n) (.int t) ↔ fits n t = true := by
    rw [HasType]
    constructor
    · rintro ⟨t', h, e⟩
      cases e
      exact h
    · exact fun h => ⟨t, h, rfl⟩
  have hn : ∀ v : Val, (stuck : Res Val) ≠ pure v := fun v h => by cases h
  have hp : ∀ v w : Val, (pure v : Res Val) = pure w → w = v := fun v w h => by cases h; rfl
  rw [h0, eval, asTy, asInt]
  cases t <;> simp only [fits, ofLit, decide_eq_true_eq] <;> split <;>
    refine ⟨⟨fun h => ?_, fun h => ?_⟩, fun v h => ?_⟩ <;>
    first
    | omega
    | exact ⟨_, rfl⟩
    | exact absurd h (hn _)
    | exact absurd h.choose_spec (hn _)
    | exact (hp _ _ h).trans (by rw [BitVec.ofInt_natCast])

/-- `255` is a `u8`, and `256` is not. -/
example (S : Items) (g : Types) : HasType S g (.lit 255) (.int .u8) ∧ ¬ HasType S g (.lit 256) (.int .u8) :=
  ⟨⟨.u8, by decide, rfl⟩, by rintro ⟨t, h, e⟩; cases e; exact absurd h (by decide)⟩

/-- A call that returns: `read_u32_le` of four bytes. -/
example (dg : Model.Chains.Digests) (p : Profile) : utils.read_u32_le ∈ crate ∧ ValsOf 64 structs [.bytes [1, 2, 3, 4]] (utils.read_u32_le.params.map (·.2)) ∧
    call crate (digests dg) 64 p 1 utils.read_u32_le.name [.bytes [1, 2, 3, 4]] = pure (.u32 0x04030201) := by
  refine ⟨by unfold crate; simp [utils.all], ⟨_, _, rfl, ?_, rfl⟩, ?_⟩
  · rw [Val.IsOf]; exact ⟨by decide, .inl rfl⟩
  · exact (call_read_u32_le [1, 2, 3, 4]).trans rfl

/-- Stopping after two statements of `g`: the variables are `abcd`, of type `[u64; 4]`, and the parameters. -/
example (dg : Model.Chains.Digests) (p : Profile) : lyra2.g ∈ crate ∧ lyra2.g.body = lyra2.g.body.take 2 ++ lyra2.g.body.drop 2 ∧
    ∃ start, bindArgs lyra2.g.params [.u64 1, .u64 2, .u64 3, .u64 4] = pure start ∧
      execBlock { u := 64, p, call := call crate (digests dg) 64 p 7 } (lyra2.g.body.take 2) start =
        pure (.next (("abcd", .words64 #[3, 2, 3, 4]) :: start)) := by
  refine ⟨by unfold crate; simp [lyra2.all], (List.take_append_drop 2 _).symm, _, rfl, ?_⟩
  run_src [lyra2.g, List.take]
  rfl

/-- The hypothesis is needed: a function that returns its argument, a slice, as an array of three bytes is not well typed, and with a slice of
two bytes it returns a value that is not of its type. -/
example (ex : String → Option (List U8 → List U8)) (p : Profile) :
    ¬ OkFn { fns := [], structs := [], ext := [] } ⟨"f", [("a", .vec .u8)], .array .u8 3, [], .var "a", false⟩ ∧
    call [⟨"f", [("a", .vec .u8)], .array .u8 3, [], .var "a", false⟩] ex 64 p 1 "f" [.bytes [1, 2]] = pure (.bytes [1, 2]) ∧
    ValsOf 64 [] [.bytes [1, 2]] [.vec .u8] ∧ ¬ (Val.bytes [1, 2]).IsOf 64 [] (.ty (.array .u8 3)) := by
  refine ⟨?_, by simp [call, runFn, bindArgs, asTy, execBlock, eval, Env.get], ⟨_, _, rfl, ?_, rfl⟩, ?_⟩
  · rw [← check_iff]; decide +kernel
  · rw [Val.IsOf]; exact ⟨by decide, .inl rfl⟩
  · rw [Val.IsOf]; rintro ⟨-, h | h⟩ <;> cases h

end Props

import Verif.Source.Crate
import Verif.Source.Digests
import Verif.Proofs.SrcCalls
import Verif.Proofs.SrcLogErase

/-! Property C68: the calls in the source text. `Source.Fn.calls` are the names of functions and constants in the text of a function
(`Source/Calls.lean`). -/

namespace Props
open Rust Source

/-- How many calls deep a function can get. -/
def ranks : List (String × Nat) :=
  [("lyra2::BLOCKLENBYTES", 1), ("lyra2::BLOCKLENBLAKE2SAFEBYTES", 1), ("lyra2::init_state", 1), ("lyra2::g", 1), ("lyra2::round_lyra", 2),
    ("lyra2::blake2b_lyra", 3), ("lyra2::reduced_blake2b_lyra", 3), ("lyra2::squeeze", 4), ("lyra2::absorb_block", 4),
    ("lyra2::absorb_block_blake2_safe", 4), ("lyra2::lyra2", 5), ("lyra2::sum", 6),
    ("lyra2mod::BLOCKLENBYTES", 1), ("lyra2mod::BLOCKLENBLAKE2SAFEBYTES", 1), ("lyra2mod::init_state", 1), ("lyra2mod::g", 1),
    ("lyra2mod::round_lyra", 2), ("lyra2mod::blake2b_lyra", 3), ("lyra2mod::reduced_blake2b_lyra", 3), ("lyra2mod::squeeze", 4),
    ("lyra2mod::absorb_block", 4), ("lyra2mod::absorb_block_blake2_safe", 4), ("lyra2mod::lyra2mod", 5), ("lyra2mod::sum", 6),
    ("cubehash::new_cube_hash", 1), ("cubehash::input_block", 1), ("cubehash::sum", 2), ("bmw::new", 1), ("bmw::compress", 1), ("bmw::sum", 2),
    ("lyra2re::sum", 6), ("lyra2rev2::sum", 7), ("lyra2rev3::sum", 7), ("lyra2z::sum", 6)]

/-- The rank of a name; 0 for those that call nothing. -/
def rank (x : String) : Nat := ((ranks.find? (·.1 = x)).map (·.2)).getD 0

theorem rank_le (x : String) : rank x ≤ 7 := by
  unfold rank
  cases h : ranks.find? (·.1 = x) with
  | none => simp
  | some y =>
    have h1 : ∀ y ∈ ranks, y.2 ≤ 7 := by decide +kernel
    exact h1 y (List.mem_of_find?_eq_some h)

/-- **C68** (i) There is no recursion: every function calls only functions of smaller rank, and no rank exceeds 7. -/
theorem C68_no_recursion : ∃ rank : String → Nat, (∀ x, rank x ≤ 7) ∧ ∀ f ∈ crate, ∀ x ∈ f.calls, rank x < rank f.name :=
  ⟨rank, rank_le, by decide +kernel⟩

/-- **C68** (ii) Therefore calls are never nested more than 8 deep: for every function, all arguments, all targets and both profiles, the run
in which a deeper nesting does not end (`depth`) is the same run, with the same log, for every greater bound. -/
theorem C68_depth {ε : Type} (obs : Access → List ε) (ext : String → Option (List U8 → List U8)) (u : Nat) (p : Profile) (depth : Nat) (hd : 8 ≤ depth)
    (name : String) (args : List Val) :
    callL obs crate ext u p depth name args = callL obs crate ext u p 8 name args ∧
      call crate ext u p depth name args = call crate ext u p 8 name args := by
  have key : ∀ {ε : Type} (obs : Access → List ε), callL obs crate ext u p depth name args = callL obs crate ext u p 8 name args := by
    intro ε obs
    have hr : ∀ f ∈ crate, ∀ x ∈ f.calls, rank x < rank f.name := by decide +kernel
    have := rank_le name
    exact callL_depth obs crate ext u p rank hr depth 8 name args (by omega) (by omega)
  refine ⟨key obs, ?_⟩
  have e := callL_erases (fun _ => ([] : List Unit)) crate ext u p
  rw [← e depth name args [], ← e 8 name args [], key]

/-- **C68** (iii) Every name that is called is that of a function or constant of the crate, except for four digests of other crates, which only the
chains call; and no two functions have the same name. -/
theorem C68_foreign :
    (∀ f ∈ crate, ∀ x ∈ f.calls, x ∈ crate.map (·.name) ∨
      x ∈ ["blake_hash::Blake256::digest", "sha3::Keccak256::digest", "skein_hash::Skein512::<U32>::digest", "groestl::Groestl256::digest"] ∧
        f.name ∈ ["lyra2re::sum", "lyra2rev2::sum", "lyra2rev3::sum", "lyra2z::sum"]) ∧ (crate.map (·.name)).Nodup := by decide +kernel

/-- A nesting of eight calls. -/
example : ∀ x ∈ [("lyra2rev2::sum", "lyra2::sum"), ("lyra2::sum", "lyra2::lyra2"), ("lyra2::lyra2", "lyra2::absorb_block"),
    ("lyra2::absorb_block", "lyra2::blake2b_lyra"), ("lyra2::blake2b_lyra", "lyra2::round_lyra"), ("lyra2::round_lyra", "lyra2::g"),
    ("lyra2::g", "lyra2::rotr64")], (crate.find? (·.name = x.1)).any (x.2 ∈ ·.calls) = true := by decide +kernel

/-- A function that calls itself has no rank. -/
example : ¬ ∃ rank : String → Nat, ∀ f ∈ [Fn.mk "f" [] (.int .u8) [] (.call "f" []) false], ∀ x ∈ f.calls, rank x < rank f.name := by
  rintro ⟨rank, h⟩
  exact absurd (h _ (List.mem_singleton_self _) "f" (by decide)) (Nat.lt_irrefl _)

end Props

import Verif.Source.Parsed.Lyra2
import Verif.Source.Parsed.Lyra2mod
import Verif.Source.Parsed.Bmw
import Verif.Source.Parsed.CubeHash
import Verif.Source.Parsed.Chains

/-!
The kernel of Lean runs the parser on the text of every file and checks that the result is the list of functions that
`Source.Crate` defines.
-/

namespace Source

/-- The functions and constants of the crate with the given files, each a name and the lines of the text. -/
def parseFiles : List (Nat × List String) → Option (List Fn)
  | [] => some []
  | (mod, lines) :: files => match Parser.parse mod inferred lines, parseFiles files with
    | some fns, some rest => some (fns ++ rest)
    | _, _ => none

/-- The files of /repo/src: src/lyra2.rs is `Text.lyra2`, and so on. src/lib.rs, which only declares these modules, is `Text.lib`. -/
def files : List (Nat × List String) :=
  [(c!"utils", Text.utils), (c!"lyra2", Text.lyra2), (c!"lyra2mod", Text.lyra2mod), (c!"cubehash", Text.cubehash),
   (c!"bmw", Text.bmw), (c!"lyra2re", Text.lyra2re), (c!"lyra2rev2", Text.lyra2rev2), (c!"lyra2rev3", Text.lyra2rev3),
   (c!"lyra2z", Text.lyra2z)]

theorem parseFiles_cons {mod : Nat} {lines : List String} {rest : List (Nat × List String)} {fns fns' : List Fn}
    (h : Parser.parse mod inferred lines = some fns) (h' : parseFiles rest = some fns') :
    parseFiles ((mod, lines) :: rest) = some (fns ++ fns') := by
  rw [parseFiles, h, h']

theorem crate_eq : utils.all ++ (lyra2.all ++ (lyra2mod.all ++ (cubehash.all ++ (bmw.all ++ (lyra2re.all ++ (lyra2rev2.all ++
    (lyra2rev3.all ++ (lyra2z.all ++ [])))))))) = crate := by
  rw [crate, List.append_nil]
  simp only [List.append_assoc]

/-- The parser makes `crate` of the text. -/
theorem parseFiles_files : parseFiles files = some crate := by
  rw [← crate_eq]
  exact parseFiles_cons utils.parsed (parseFiles_cons lyra2.parsed (parseFiles_cons lyra2mod.parsed
    (parseFiles_cons cubehash.parsed (parseFiles_cons bmw.parsed (parseFiles_cons lyra2re.parsed
      (parseFiles_cons lyra2rev2.parsed (parseFiles_cons lyra2rev3.parsed (parseFiles_cons lyra2z.parsed rfl))))))))

end Source

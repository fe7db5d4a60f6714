import Verif.Source.Parser

/-!
# The tokens of a text

The rules by which a text, a sequence of characters, consists of tokens. They do not say how to find the tokens: that is what the
lexer in `Source.Parser` does, and `Proofs/Lexical.lean` proves that it follows these rules.

The rules are those of the Rust reference, for the fragment that occurs in /repo/src: there are no escapes in string literals, no
comments within comments, no characters, lifetimes, raw strings or numerals with a suffix.
-/

namespace Source.Lexical
open Parser (Token isWordChar isSpace isDigit between symbols1 symbols2 wordCode)

/-- The characters of the lines, each of which ends with a newline. -/
def text (lines : List (List Nat)) : List Nat := lines.flatMap fun l => l ++ [c!"\n"]

/-- The number of the string of the two characters. -/
def pair (c d : Nat) : Nat := c * 0x200000 + d

/-- The text does not begin with a letter, a digit, or `_`. -/
def WordEnds (cs : List Nat) : Prop := ∀ c rest, cs = c :: rest → isWordChar c = false

/-- `IsDigits base acc cs n`: the digits `cs` after a number `acc` yield the number `n`. `_` is a separator. -/
inductive IsDigits (base : Nat) : Nat → List Nat → Nat → Prop
  | nil {acc : Nat} : IsDigits base acc [] acc
  | separator {acc n : Nat} {cs : List Nat} : IsDigits base acc cs n → IsDigits base acc (c!"_" :: cs) n
  | decimal {acc c n : Nat} {cs : List Nat} : c!"0" ≤ c → c ≤ c!"9" → c - c!"0" < base →
      IsDigits base (acc * base + (c - c!"0")) cs n → IsDigits base acc (c :: cs) n
  | lower {acc c n : Nat} {cs : List Nat} : c!"a" ≤ c → c ≤ c!"f" → c - c!"a" + 10 < base →
      IsDigits base (acc * base + (c - c!"a" + 10)) cs n → IsDigits base acc (c :: cs) n
  | upper {acc c n : Nat} {cs : List Nat} : c!"A" ≤ c → c ≤ c!"F" → c - c!"A" + 10 < base →
      IsDigits base (acc * base + (c - c!"A" + 10)) cs n → IsDigits base acc (c :: cs) n

/-- Numerals: decimal, beginning with a digit, or hexadecimal. -/
inductive IsNumeral : List Nat → Nat → Prop
  | decimal {c n : Nat} {cs : List Nat} : c!"0" ≤ c → c ≤ c!"9" → IsDigits 10 0 (c :: cs) n → IsNumeral (c :: cs) n
  | hexadecimal {n : Nat} {cs : List Nat} : IsDigits 16 0 cs n → IsNumeral (c!"0" :: c!"x" :: cs) n

/-- What follows the end of the line. -/
inductive LineEnds : List Nat → List Nat → Prop
  | close {rest : List Nat} : LineEnds (c!"\n" :: rest) rest
  | char {c : Nat} {cs rest : List Nat} : c ≠ c!"\n" → LineEnds cs rest → LineEnds (c :: cs) rest

/-- What follows the end of the comment. -/
inductive CommentEnds : List Nat → List Nat → Prop
  | close {rest : List Nat} : CommentEnds (c!"*" :: c!"/" :: rest) rest
  | char {c d : Nat} {cs rest : List Nat} : ¬ (c = c!"*" ∧ d = c!"/") → ¬ (c = c!"/" ∧ d = c!"*") → CommentEnds (d :: cs) rest →
      CommentEnds (c :: d :: cs) rest

/-- What follows the end of the string literal. -/
inductive StringEnds : List Nat → List Nat → Prop
  | close {rest : List Nat} : StringEnds (c!"\"" :: rest) rest
  | char {c : Nat} {cs rest : List Nat} : c ≠ c!"\"" → c ≠ c!"\\" → StringEnds cs rest → StringEnds (c :: cs) rest

/-- The text consists of the tokens. Symbols and words are as long as possible. -/
inductive IsTokens : List Nat → List Token → Prop
  | nil : IsTokens [] []
  | space {c : Nat} {cs : List Nat} {ts : List Token} : isSpace c = true → IsTokens cs ts → IsTokens (c :: cs) ts
  | line {cs rest : List Nat} {ts : List Token} : LineEnds cs rest → IsTokens rest ts → IsTokens (c!"/" :: c!"/" :: cs) ts
  | comment {cs rest : List Nat} {ts : List Token} : CommentEnds cs rest → IsTokens rest ts → IsTokens (c!"/" :: c!"*" :: cs) ts
  | string {cs rest : List Nat} {ts : List Token} : StringEnds cs rest → IsTokens rest ts → IsTokens (c!"\"" :: cs) (.str :: ts)
  | word {c : Nat} {cs rest : List Nat} {ts : List Token} : (∀ x ∈ c :: cs, isWordChar x = true) → isDigit c = false → WordEnds rest →
      IsTokens rest ts → IsTokens (c :: cs ++ rest) (.word (wordCode 0 (c :: cs)) :: ts)
  | num {n : Nat} {cs rest : List Nat} {ts : List Token} : IsNumeral cs n → WordEnds rest → IsTokens rest ts →
      IsTokens (cs ++ rest) (.num n :: ts)
  | symbol3 {rest : List Nat} {ts : List Token} : IsTokens rest ts → IsTokens (c!"." :: c!"." :: c!"=" :: rest) (.sym c!"..=" :: ts)
  | symbol2 {c d : Nat} {rest : List Nat} {ts : List Token} : pair c d ∈ symbols2 →
      (∀ rest', rest = c!"=" :: rest' → pair c d ≠ c!"..") → IsTokens rest ts → IsTokens (c :: d :: rest) (.sym (pair c d) :: ts)
  | symbol1 {c : Nat} {rest : List Nat} {ts : List Token} : c ∈ symbols1 →
      (∀ d rest', rest = d :: rest' → pair c d ∉ c!"//" :: c!"/*" :: symbols2) → IsTokens rest ts →
      IsTokens (c :: rest) (.sym c :: ts)

end Source.Lexical

import Verif.Model.Testing
/-!
# The formats of the test support library

Hexadecimal strings, and files with test vectors, as the header describes them.  From the model only the types `Field` and `ErrorCode` are used.
-/

namespace Nat20.TestFormat

open Nat20.Testing (Field ErrorCode)

/-- A digit and its value. -/
def IsDigit (c : Char) (d : Nat) : Prop := "0123456789abcdef".toList[d]? = some c ∨ "0123456789ABCDEF".toList[d]? = some c

/-- Two digits per octet, the more significant one first. -/
inductive IsHex : List Char → Bytes → Prop
  | nil : IsHex [] []
  | cons {a b : Char} {h l : Nat} {s : List Char} {bs : Bytes} : IsDigit a h → IsDigit b l → IsHex s bs → IsHex (a :: b :: s) (UInt8.ofNat (16 * h + l) :: bs)

/-- The lines of a text; the newline after the last line may be missing. -/
inductive Lines : List Char → List (List Char) → Prop
  | nil : Lines [] []
  | last {l : List Char} : '\n' ∉ l → l ≠ [] → Lines l [l]
  | cons {l rest : List Char} {ls : List (List Char)} : '\n' ∉ l → Lines rest ls → Lines (l ++ '\n' :: rest) (l :: ls)

/-- Blanks and tabs. -/
def IsBlank (c : Char) : Prop := c = ' ' ∨ c = '\t'

/-- `t` is `s` without the blanks at both ends. -/
def Trimmed (s t : List Char) : Prop :=
  ∃ a b, s = a ++ t ++ b ∧ (∀ c ∈ a, IsBlank c) ∧ (∀ c ∈ b, IsBlank c) ∧ (∀ c, t.head? = some c → ¬ IsBlank c) ∧ (∀ c, t.getLast? = some c → ¬ IsBlank c)

/-- Nothing, or a comment. -/
def IsComment (s : List Char) : Prop := s = [] ∨ s.head? = some '#'

/-- `key : value # comment`. -/
def IsPair (line : List Char) (key value : List Char) : Prop :=
  ∃ k v comment, line = k ++ ':' :: v ++ comment ∧ ':' ∉ k ∧ '#' ∉ k ∧ '#' ∉ v ∧ IsComment comment ∧ Trimmed k key ∧ Trimmed v value

/-- A line without a colon in front of the comment: it is ignored. -/
def IsIgnored (line : List Char) : Prop := ∃ text comment, line = text ++ comment ∧ ':' ∉ text ∧ '#' ∉ text ∧ IsComment comment

/-- The pairs in some lines. -/
inductive LinePairs : List (List Char) → List (List Char × List Char) → Prop
  | nil : LinePairs [] []
  | pair {line key value : List Char} {lines : List (List Char)} {pairs : List (List Char × List Char)} :
      IsPair line key value → LinePairs lines pairs → LinePairs (line :: lines) ((key, value) :: pairs)
  | ignored {line : List Char} {lines : List (List Char)} {pairs : List (List Char × List Char)} :
      IsIgnored line → LinePairs lines pairs → LinePairs (line :: lines) pairs

/-- The pairs in a file. -/
def FilePairs (file : List Char) (pairs : List (List Char × List Char)) : Prop := ∃ lines, Lines file lines ∧ LinePairs lines pairs

/-- The pairs are exactly these fields, in this order, with these values. -/
def Reads {V : Type} : List (Field V) → List (List Char × List Char) → List V → Prop
  | [], [], [] => True
  | f :: fs, p :: ps, v :: vs => p.1 = f.key ∧ f.parse p.2 = some v ∧ Reads fs ps vs
  | _, _, _ => False

/-- The pairs begin with these vectors. -/
inductive Vectors {V : Type} (fields : List (Field V)) : List (List Char × List Char) → List (List V) → List (List Char × List Char) → Prop
  | nil {tail : List (List Char × List Char)} : Vectors fields tail [] tail
  | cons {vector pairs tail : List (List Char × List Char)} {v : List V} {vs : List (List V)} :
      Reads fields vector v → Vectors fields pairs vs tail → Vectors fields (vector ++ pairs) (v :: vs) tail

/-- The beginning of a vector, or nothing at all. -/
def IsIncomplete {V : Type} (fields : List (Field V)) (pairs : List (List Char × List Char)) : Prop :=
  ∃ k v, k < fields.length ∧ Reads (fields.take k) pairs v

/-- The first pair that is not as it should be has another key, or the right key but a malformed value. -/
def IsBad {V : Type} (fields : List (Field V)) (pairs : List (List Char × List Char)) (e : ErrorCode) : Prop :=
  ∃ k good bad rest v f, pairs = good ++ bad :: rest ∧ Reads (fields.take k) good v ∧ fields[k]? = some f ∧
    (bad.1 ≠ f.key ∧ e = .unexpectedKey ∨ bad.1 = f.key ∧ f.parse bad.2 = none ∧ e = .parsingError)

/-- Pieces of `n + 1` elements; the last one may be shorter. -/
def pieces (n : Nat) (l : List α) : List (List α) :=
  if l = [] then [] else l.take (n + 1) :: pieces n (l.drop (n + 1))
termination_by l.length
decreasing_by
  rename_i h
  cases l with
  | nil => exact absurd rfl h
  | cons a t => simp only [List.length_drop, List.length_cons]; omega

/-- A dump: up to 16 octets per line, in two groups of up to eight. -/
def dump (hexOf : UInt8 → List Char) (bs : Bytes) : List Char :=
  ['\n'].intercalate ((pieces 15 bs).map fun line => [' ', ' '].intercalate ((pieces 7 line).map fun group => [' '].intercalate (group.map hexOf)))

end Nat20.TestFormat

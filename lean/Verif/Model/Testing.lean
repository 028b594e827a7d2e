import Verif.Model.Mem
/-!
# Model of the test support library: `src/testing/*`, `include/nat20/testing/*`

Strings are lists of characters; only comparisons with ASCII characters are made, so the encoding does not matter.  Reading a file is modelled as
reading the list of its characters (no I/O errors once it is open), and allocations succeed.
-/

namespace Nat20.Testing

/-- `std::hex << std::setw(2) << std::setfill('0') << (int)b`, as used in `src/testing/test_utils.cpp` 32, 42, 51. -/
def putHex (b : UInt8) : List Char :=
  let digits := Nat.toDigits 16 b.toNat
  List.replicate (2 - digits.length) '0' ++ digits

/-- `src/testing/test_utils.cpp` 34-43: the loop of `hexdump` from index `i` on. -/
def hexdumpLoop (i : Nat) : Bytes → List Char
  | [] => []
  | b :: rest => (if i &&& 0x0F = 0 then ['\n'] else if i &&& 0x07 = 0 then [' ', ' '] else [' ']) ++ putHex b ++ hexdumpLoop (i + 1) rest

/-- `src/testing/test_utils.cpp` 25-45: `hexdump`. -/
def hexdump : Bytes → List Char
  | [] => []
  | b :: rest => putHex b ++ hexdumpLoop 1 rest

/-- `src/testing/test_utils.cpp` 47-54: `hex`. -/
def hex : Bytes → List Char
  | [] => []
  | b :: rest => putHex b ++ hex rest

/-- `std::string::find_first_not_of(" \t")`, `src/testing/test_vector_reader.cpp` 24. -/
def findFirstNotBlank (s : List Char) : Option Nat := s.findIdx? fun c => c != ' ' && c != '\t'

/-- `std::string::find_last_not_of(" \t")`, `src/testing/test_vector_reader.cpp` 28. -/
def findLastNotBlank (s : List Char) : Option Nat := (findFirstNotBlank s.reverse).map fun i => s.length - 1 - i

/-- `src/testing/test_vector_reader.cpp` 23-33: the lambda `trim`. -/
def trim (s : List Char) : List Char :=
  match findFirstNotBlank s with
  | none => []
  | some b =>
    match findLastNotBlank s with
    | none => []
    | some e => (s.drop b).take (e - b + 1)

/-- `src/testing/test_vector_reader.cpp` 35-38: the part of the line in front of the first `#`. -/
def removeComment (s : List Char) : List Char :=
  match s.findIdx? (· == '#') with
  | some e => s.take e
  | none => s

/-- `src/testing/test_vector_reader.cpp` 22-45: `trim_and_remove_comments`. -/
def trimAndRemoveComments (line : List Char) : Option (List Char × List Char) :=
  let s := removeComment line
  match s.findIdx? (· == ':') with
  | none => none
  | some c => some (trim (s.take c), trim (s.drop (c + 1)))

/-- `std::getline(file, line)`, `src/testing/test_vector_reader.cpp` 49: the next line without the newline, and the rest of the file; none at the end. -/
def getline : List Char → Option (List Char × List Char)
  | [] => none
  | c :: rest =>
    if c = '\n' then some ([], rest)
    else match getline rest with
      | none => some ([c], [])
      | some (line, rest) => some (c :: line, rest)

theorem getline_shorter : ∀ {file line rest : List Char}, getline file = some (line, rest) → rest.length < file.length
  | c :: file, line, rest, h => by
    unfold getline at h
    split at h
    · simp only [Option.some.injEq, Prod.mk.injEq] at h
      simp [h.2]
    · split at h
      · simp only [Option.some.injEq, Prod.mk.injEq] at h
        simp [← h.2]
      · rename_i l r hr
        simp only [Option.some.injEq, Prod.mk.injEq] at h
        have := getline_shorter hr
        simp only [List.length_cons]
        rw [← h.2]
        omega

/-- `src/testing/test_vector_reader.cpp` 47-56: `n20_testing_next_pair`, and the rest of the file. -/
def nextPair (file : List Char) : Option ((List Char × List Char) × List Char) :=
  match _h : getline file with
  | none => none
  | some (line, rest) =>
    match trimAndRemoveComments line with
    | some pair => some (pair, rest)
    | none => nextPair rest
termination_by file.length
decreasing_by exact getline_shorter _h

/-- What `std::from_chars` with base 16 takes for a digit (`include/nat20/testing/test_vector_reader.h` 192). -/
def digitOf (c : Char) : Option Nat :=
  if '0' ≤ c ∧ c ≤ '9' then some (c.toNat - '0'.toNat)
  else if 'a' ≤ c ∧ c ≤ 'f' then some (c.toNat - 'a'.toNat + 10)
  else if 'A' ≤ c ∧ c ≤ 'F' then some (c.toNat - 'A'.toNat + 10)
  else none

/-- `std::from_chars(first, last, uint8_t&, 16)`, `include/nat20/testing/test_vector_reader.h` 192: the value of the longest prefix of digits; none if
there is no digit or the value does not fit.  Where it stopped (`ptr`) is not looked at by the caller. -/
def fromChars (s : List Char) : Option UInt8 :=
  let digits := (s.takeWhile fun c => (digitOf c).isSome).filterMap digitOf
  if digits.isEmpty then none
  else
    let value := digits.foldl (fun v d => 16 * v + d) 0
    if value < 256 then some (UInt8.ofNat value) else none

/-- `include/nat20/testing/test_vector_reader.h` 188-197: the loop of `hex_string_parser::parse`, for strings of even size. -/
def hexParseLoop : List Char → Option Bytes
  | a :: b :: rest =>
    match fromChars [a, b] with
    | none => none
    | some v => (hexParseLoop rest).map (v :: ·)
  | _ => some []

/-- `include/nat20/testing/test_vector_reader.h` 179-199: `hex_string_parser::parse`. -/
def hexParse (s : List Char) : Option Bytes :=
  if s.isEmpty then some []
  else if s.length % 2 ≠ 0 then none
  else hexParseLoop s

/-- `include/nat20/testing/test_vector_reader.h` 159-161: `string_parser::parse`. -/
def stringParse (s : List Char) : Option (List Char) := some s

/-- `include/nat20/testing/test_vector_reader.h` 117-122: `ErrorCode`. -/
inductive ErrorCode where
  | none
  | endOfFile
  | unexpectedKey
  | parsingError
deriving DecidableEq

/-- `include/nat20/testing/test_vector_reader.h` 81-98: `DEFINE_FIELD`.  One type for the values of all fields stands for the types of the tuple. -/
structure Field (V : Type) where
  key : List Char
  parse : List Char → Option V

/-- `include/nat20/testing/test_vector_reader.h` 338-361: `next_field`: the value (none for the default value that is returned with an error), the error code and the
rest of the file. -/
def nextField {V : Type} (f : Field V) (error : ErrorCode) (file : List Char) : Option V × ErrorCode × List Char :=
  if error ≠ .none then (none, error, file)
  else match nextPair file with
    | none => (none, .endOfFile, [])
    | some ((key, value), rest) =>
      if key ≠ f.key then (none, .unexpectedKey, rest)
      else match f.parse value with
        | some v => (some v, .none, rest)
        | none => (none, .parsingError, rest)

/-- `include/nat20/testing/test_vector_reader.h` 370: `tuple_type{next_field<Fields>(errorcode)...}`, evaluated from left to right. -/
def nextFields {V : Type} : List (Field V) → ErrorCode → List Char → List (Option V) × ErrorCode × List Char
  | [], error, file => ([], error, file)
  | f :: fs, error, file =>
    let (v, error, file) := nextField f error file
    let (vs, error, file) := nextFields fs error file
    (v :: vs, error, file)

/-- `include/nat20/testing/test_vector_reader.h` 363-375: `next_vector`. -/
def nextVector {V : Type} (fields : List (Field V)) (file : List Char) : Except ErrorCode (List (Option V)) × List Char :=
  if fields.length = 0 then (.ok [], file)
  else
    let (result, error, file) := nextFields fields .none file
    if error ≠ .none then (.error error, file) else (.ok result, file)

/-- What comes of reading a file: the vectors, an exception about the file or about a vector, or nothing (the loop never ends)
(`include/nat20/testing/test_vector_reader.h` 312-334). -/
inductive ReadResult (V : Type) where
  | vectors (vs : List (List (Option V)))
  | couldNotOpen
  | errorReading (e : ErrorCode)
  | diverges

/-- `include/nat20/testing/test_vector_reader.h` 319-331: the loop, with a bound on the number of rounds.  The
error of a vector is never `None` (`next_vector` returns those errors only that are not). -/
def readLoop {V : Type} (fields : List (Field V)) : Nat → List (List (Option V)) → List Char → ReadResult V
  | 0, _, _ => .diverges
  | n + 1, acc, file =>
    match nextVector fields file with
    | (.error e, _) => if e = .endOfFile then .vectors acc else .errorReading e
    | (.ok v, rest) => readLoop fields n (acc ++ [v]) rest

/-- `include/nat20/testing/test_vector_reader.h` 312-334: `read_all_vectors_from_file`; none is a file that cannot be opened. -/
def readAll {V : Type} (fields : List (Field V)) (rounds : Nat) : Option (List Char) → ReadResult V
  | none => .couldNotOpen
  | some file => readLoop fields rounds [] file

end Nat20.Testing

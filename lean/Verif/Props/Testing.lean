import Verif.Lemmas.Testing
/-!
# C61 - C65: the test support library
-/

namespace Nat20

open TestFormat Testing

/-! ## Hexadecimal strings -/

theorem hex_isHex (bs : Bytes) : IsHex (hex bs) bs := by
  induction bs with
  | nil => exact .nil
  | cons b bs ih =>
    obtain ⟨h, l, x, y, h1, h2, h3, h4⟩ := putHex_digits b
    unfold hex
    rw [h1, h4]
    exact .cons (.inl h2) (.inl h3) ih

theorem hexParseLoop_hex {s : List Char} {bs : Bytes} (h : IsHex s bs) : hexParseLoop s = some bs ∧ s.length = 2 * bs.length := by
  induction h with
  | nil => exact ⟨rfl, rfl⟩
  | cons ha hb _ ih =>
    unfold hexParseLoop
    rw [fromChars_two ha hb]
    simp only [ih.1, Option.map_some, List.length_cons]
    exact ⟨trivial, by omega⟩

/-- **C61.** The parser understands every hexadecimal string, in lower, upper or mixed case. -/
theorem C61_parse (s : List Char) (bs : Bytes) (h : IsHex s bs) : hexParse s = some bs := by
  obtain ⟨h1, h2⟩ := hexParseLoop_hex h
  unfold hexParse
  split
  · rename_i he
    rw [List.isEmpty_iff.1 he] at h1
    exact h1
  · rw [if_neg (by omega), h1]

/-- **C61.** `hex` writes two lower case digits per octet and nothing else, and the parser reads the same octets again. -/
theorem C61_hex (bs : Bytes) : IsHex (hex bs) bs ∧ (∀ c ∈ hex bs, c ∈ "0123456789abcdef".toList) ∧ (hex bs).length = 2 * bs.length ∧ hexParse (hex bs) = some bs := by
  refine ⟨hex_isHex bs, ?_, (hexParseLoop_hex (hex_isHex bs)).2, C61_parse _ _ (hex_isHex bs)⟩
  induction bs with
  | nil => intro c h; cases h
  | cons b bs ih =>
    obtain ⟨h, l, x, y, h1, h2, h3, _⟩ := putHex_digits b
    intro c hc
    unfold hex at hc
    rw [h1] at hc
    simp only [List.cons_append, List.nil_append, List.mem_cons] at hc
    rcases hc with rfl | rfl | hc
    · exact List.mem_of_getElem? h2
    · exact List.mem_of_getElem? h3
    · exact ih c hc

example : hex [0x00, 0x0a, 0xff] = "000aff".toList := by decide +kernel
example : IsHex "0Af9".toList [0x0a, 0xf9] :=
  .cons (h := 0) (l := 10) (.inl rfl) (.inr rfl) (.cons (h := 15) (l := 9) (.inl rfl) (.inl rfl) .nil)

theorem hexParseLoop_cases : ∀ (s : List Char) (bs : Bytes), hexParseLoop s = some bs → s.length % 2 = 0 →
    bs.length * 2 = s.length ∧ (∀ i, i < bs.length → ∃ c d, s[2 * i]? = some c ∧ IsDigit c d) ∧
    ((∀ i c, s[2 * i + 1]? = some c → ∃ d, IsDigit c d) → IsHex s bs)
  | [], bs, h, _ => by
    simp only [hexParseLoop, Option.some.injEq] at h
    subst h
    exact ⟨rfl, by simp, fun _ => .nil⟩
  | [a], _, _, h => by simp at h
  | a :: b :: s, bs, h, hl => by
    unfold hexParseLoop at h
    by_cases ha : ∃ d, IsDigit a d
    · obtain ⟨d, ha⟩ := ha
      cases hr : hexParseLoop s with
      | none => cases hf : fromChars [a, b] <;> rw [hf] at h <;> simp [hr] at h
      | some bs' =>
        obtain ⟨v, hv⟩ : ∃ v, fromChars [a, b] = some v := by
          by_cases hb : ∃ l, IsDigit b l
          · obtain ⟨l, hb⟩ := hb; exact ⟨_, fromChars_two ha hb⟩
          · exact ⟨_, fromChars_one ha (fun d hd => hb ⟨d, hd⟩)⟩
        rw [hv] at h
        simp only [hr, Option.map_some, Option.some.injEq] at h
        subst h
        obtain ⟨h1, h2, h3⟩ := hexParseLoop_cases s bs' hr (by simp only [List.length_cons] at hl; omega)
        refine ⟨by simp only [List.length_cons]; omega, ?_, ?_⟩
        · intro i hi
          cases i with
          | zero => exact ⟨a, d, rfl, ha⟩
          | succ i => exact h2 i (by simpa using hi)
        · intro hodd
          obtain ⟨l, hb⟩ := hodd 0 b rfl
          have : v = UInt8.ofNat (16 * d + l) := by
            rw [fromChars_two ha hb] at hv
            exact (Option.some.inj hv).symm
          rw [this]
          exact .cons ha hb (h3 fun i c hc => hodd (i + 1) c hc)
    · rw [fromChars_none (fun d hd => ha ⟨d, hd⟩)] at h
      exact absurd h (by simp)

/-- **C62, in part.** What the parser accepts has even length, has a digit at the first place of each pair, and is understood correctly if the second places hold digits,
too.  Missing: strings with something else at a second place are not rejected (`C62_accepts_other_characters`). -/
theorem C62_rejects_partial (s : List Char) (bs : Bytes) (h : hexParse s = some bs) :
    s.length = 2 * bs.length ∧ (∀ i, i < bs.length → ∃ c d, s[2 * i]? = some c ∧ IsDigit c d) ∧
    ((∀ i c, s[2 * i + 1]? = some c → ∃ d, IsDigit c d) → IsHex s bs) := by
  have key : hexParseLoop s = some bs ∧ s.length % 2 = 0 := by
    unfold hexParse at h
    split at h
    · rename_i he
      have he' := List.isEmpty_iff.1 he
      subst he'
      exact ⟨h, rfl⟩
    · split at h
      · exact absurd h (by simp)
      · exact ⟨h, by omega⟩
  obtain ⟨h1, h2, h3⟩ := hexParseLoop_cases s bs key.1 key.2
  exact ⟨by omega, h2, h3⟩

/-- A finding: a digit followed by any character that is not a digit is accepted, as the value of the one digit. -/
theorem C62_accepts_other_characters (a b : Char) (h : Nat) (ha : IsDigit a h) (hb : ∀ d, ¬ IsDigit b d) (s : List Char) (bs : Bytes) (hs : IsHex s bs) :
    hexParse (a :: b :: s) = some (UInt8.ofNat h :: bs) ∧ ¬ ∃ bs', IsHex (a :: b :: s) bs' := by
  obtain ⟨h1, h2⟩ := hexParseLoop_hex hs
  constructor
  · unfold hexParse
    rw [if_neg (by simp), if_neg (by simp only [List.length_cons]; omega)]
    unfold hexParseLoop
    rw [fromChars_one ha hb]
    simp [h1]
  · rintro ⟨_, h'⟩
    cases h' with
    | cons _ hb' _ => exact hb _ hb'

example : hexParse "1g".toList = some [0x01] := by decide +kernel
example : hexParse "g1".toList = none ∧ hexParse "1".toList = none ∧ hexParse "a b ".toList = some [0x0a, 0x0b] := by decide +kernel

/-! ## Files with test vectors -/

/-- Every file has pairs, and only in one way. -/
theorem filePairs_unique {file : List Char} {ps qs : List (List Char × List Char)} (h : FilePairs file ps) (h' : FilePairs file qs) : ps = qs := by
  induction ps generalizing file qs with
  | nil =>
    rcases nextPair_pairs h with ⟨_, e⟩ | ⟨_, _, _, e, _⟩
    · rcases nextPair_pairs h' with ⟨e', _⟩ | ⟨_, _, _, _, e', _⟩
      · exact e'.symm
      · rw [e] at e'; exact absurd e' (by simp)
    · simp at e
  | cons p ps ih =>
    rcases nextPair_pairs h with ⟨e, _⟩ | ⟨p1, ps1, r1, e1, n1, _, f1⟩
    · simp at e
    · obtain ⟨rfl, rfl⟩ := List.cons.inj e1
      rcases nextPair_pairs h' with ⟨_, e'⟩ | ⟨p2, ps2, r2, e2, n2, _, f2⟩
      · rw [n1] at e'; exact absurd e' (by simp)
      · rw [n1] at n2
        simp only [Option.some.injEq, Prod.mk.injEq] at n2
        obtain ⟨rfl, rfl⟩ := n2
        rw [e2, ih f1 f2]

/-- **C63.** Whatever the layout of the file (blanks, comments, other lines), all its vectors are returned, in order, if all pairs are as they should be and the last vector
is complete (`tail = []`) or not. -/
theorem C63_vectors {V : Type} (fields : List (Field V)) (hne : fields ≠ []) (file : List Char) (pairs tail : List (List Char × List Char)) (vs : List (List V))
    (hf : FilePairs file pairs) (hv : Vectors fields pairs vs tail) (ht : IsIncomplete fields tail) (rounds : Nat) (hr : file.length < rounds) :
    readAll fields rounds (some file) = .vectors (vs.map (·.map some)) := by
  obtain ⟨file', n, h1, h2, h3⟩ := readLoop_vectors hne hv file rounds [] hf hr
  unfold readAll
  simp only
  rw [h3]
  obtain ⟨n, rfl⟩ : ∃ m, n = m + 1 := ⟨n - 1, by omega⟩
  obtain ⟨k, v, hk, hk'⟩ := ht
  have he := nextFields_incomplete fields k hk tail v hk' file' h1
  have hnv : (nextVector fields file').1 = .error .endOfFile := by
    unfold nextVector
    rw [if_neg (by omega)]
    simp only [he]
    rfl
  rw [readLoop]
  split
  · rename_i e _ heq
    rw [heq] at hnv
    simp only [Except.error.injEq] at hnv
    rw [if_pos hnv, List.nil_append]
  · rename_i heq
    rw [heq] at hnv
    exact absurd hnv (by simp)

/-- **C63.** A wrong key or a malformed value raises the exception for it, wherever it is. -/
theorem C63_errors {V : Type} (fields : List (Field V)) (hne : fields ≠ []) (file : List Char) (pairs tail : List (List Char × List Char)) (vs : List (List V))
    (hf : FilePairs file pairs) (hv : Vectors fields pairs vs tail) (e : ErrorCode) (ht : IsBad fields tail e) (rounds : Nat) (hr : file.length < rounds) :
    readAll fields rounds (some file) = .errorReading e := by
  obtain ⟨file', n, h1, h2, h3⟩ := readLoop_vectors hne hv file rounds [] hf hr
  unfold readAll
  simp only
  rw [h3]
  obtain ⟨n, rfl⟩ : ∃ m, n = m + 1 := ⟨n - 1, by omega⟩
  obtain ⟨k, good, bad, rest, v, f, rfl, hgood, hk, hbad⟩ := ht
  have he := nextFields_bad fields k f hk good rest bad v hgood e hbad file' h1
  have hcase : e ≠ .none ∧ e ≠ .endOfFile := by rcases hbad with ⟨_, rfl⟩ | ⟨_, _, rfl⟩ <;> simp
  have hnv : (nextVector fields file').1 = .error e := by
    unfold nextVector
    rw [if_neg (by have := List.length_pos_iff.2 hne; omega)]
    simp only [he]
    rw [if_pos hcase.1]
  rw [readLoop]
  split
  · rename_i e' _ heq
    rw [heq] at hnv
    simp only [Except.error.injEq] at hnv
    rw [hnv, if_neg hcase.2]
  · rename_i heq
    rw [heq] at hnv
    exact absurd hnv (by simp)

/-- **C63.** One of the two is the case for every file, so that reading always ends: with the vectors, or with an exception for the first pair that is not as it should be. -/
theorem C63_every_file {V : Type} (fields : List (Field V)) (hne : fields ≠ []) (file : List Char) : ∃ pairs vs tail, FilePairs file pairs ∧ Vectors fields pairs vs tail ∧
    ((IsIncomplete fields tail ∧ ∀ rounds, file.length < rounds → readAll fields rounds (some file) = .vectors (vs.map (·.map some))) ∨
      ∃ e, IsBad fields tail e ∧ ∀ rounds, file.length < rounds → readAll fields rounds (some file) = .errorReading e) := by
  obtain ⟨pairs, hf⟩ := filePairs_exist file
  obtain ⟨vs, tail, hv, h⟩ := vectors_exist fields hne _ pairs (Nat.le_refl _)
  refine ⟨pairs, vs, tail, hf, hv, ?_⟩
  rcases h with h | ⟨e, h⟩
  · exact .inl ⟨h, fun r hr => C63_vectors fields hne file pairs tail vs hf hv h r hr⟩
  · exact .inr ⟨e, h, fun r hr => C63_errors fields hne file pairs tail vs hf hv e h r hr⟩

/-- A file that cannot be opened raises an exception. -/
theorem C63_no_file {V : Type} (fields : List (Field V)) (rounds : Nat) : readAll fields rounds none = .couldNotOpen := rfl

/-- **C64, in part.** If the vectors returned do not account for all pairs of the file, what is missing is less than one vector at the end.  Missing: such files should be rejected
(`C64_incomplete_accepted`). -/
theorem C64_nothing_lost_partial {V : Type} (fields : List (Field V)) (hne : fields ≠ []) (file : List Char) (rounds : Nat) (hr : file.length < rounds) (vs : List (List (Option V)))
    (h : readAll fields rounds (some file) = .vectors vs) :
    ∃ pairs values tail, FilePairs file pairs ∧ Vectors fields pairs values tail ∧ vs = values.map (·.map some) ∧ tail.length < fields.length := by
  obtain ⟨pairs, values, tail, hf, hv, h'⟩ := C63_every_file fields hne file
  rcases h' with ⟨⟨k, v, hk, hk'⟩, h'⟩ | ⟨e, _, h'⟩
  · refine ⟨pairs, values, tail, hf, hv, ?_, ?_⟩
    · have := h' rounds hr
      rw [h] at this
      exact ReadResult.vectors.inj this
    · have len : ∀ (fs : List (Field V)) (g : List (List Char × List Char)) (w : List V), Reads fs g w → g.length = fs.length := by
        intro fs
        induction fs with
        | nil => intro g w h; cases g <;> cases w <;> simp_all [Reads]
        | cons f fs ih =>
          intro g w h
          cases g <;> cases w <;> simp only [Reads] at h
          rw [List.length_cons, List.length_cons, ih _ _ h.2.2]
      have := len _ _ _ hk'
      rw [List.length_take] at this
      omega
  · rw [h' rounds hr] at h
    exact absurd h (by simp)

/-- A finding: a file that ends in the middle of a vector is read without an error, the incomplete vector being dropped. -/
theorem C64_incomplete_accepted {V : Type} (fields : List (Field V)) (file : List Char) (pairs tail : List (List Char × List Char)) (vs : List (List V))
    (hf : FilePairs file pairs) (hv : Vectors fields pairs vs tail) (ht : IsIncomplete fields tail) (_ : tail ≠ []) :
    readAll fields (file.length + 1) (some file) = .vectors (vs.map (·.map some)) := by
  refine C63_vectors fields ?_ file pairs tail vs hf hv ht _ (Nat.lt_succ_self _)
  rintro rfl
  obtain ⟨k, v, hk, _⟩ := ht
  simp at hk

/-- A finding: a reader without fields never ends, whatever is in the file. -/
theorem C64_no_fields {V : Type} (file : List Char) (rounds : Nat) : readAll ([] : List (Field V)) rounds (some file) = .diverges := by
  unfold readAll
  simp only
  have : ∀ (acc : List (List (Option V))), readLoop [] rounds acc file = .diverges := by
    induction rounds with
    | zero => intro acc; rfl
    | succ n ih =>
      intro acc
      rw [readLoop]
      simp only [nextVector, List.length_nil, if_true]
      exact ih _
  exact this []

/-! An example: two vectors of a name and some octets, and half a vector. -/

/-- The reader of the example in the header. -/
def exampleFields : List (Field (List Char ⊕ Bytes)) :=
  [⟨"Name".toList, fun s => (stringParse s).map .inl⟩, ⟨"Vec".toList, fun s => (hexParse s).map .inr⟩]

/-- A file with comments, blanks, an empty line and no newline at the end. -/
def exampleFile : List Char := "# two vectors\nName: one # first\n  Vec :0102\n\nName:two\nVec:\t \nName : thr:ee".toList

/-- The result, in a form that can be compared. -/
def ReadResult.toOption {V : Type} : ReadResult V → Option (List (List (Option V)))
  | .vectors vs => some vs
  | _ => none

example : (ReadResult.toOption (readAll exampleFields 100 (some exampleFile)) ==
    some [[some (.inl "one".toList), some (.inr [1, 2])], [some (.inl "two".toList), some (.inr [])]]) = true := by decide +kernel

example : (match readAll exampleFields 100 (some "Name: a\nVek: 01".toList) with | .errorReading e => decide (e = .unexpectedKey) | _ => false) = true := by decide +kernel
example : (match readAll exampleFields 100 (some "Name: a\nVec: 1".toList) with | .errorReading e => decide (e = .parsingError) | _ => false) = true := by decide +kernel

/-- The hypotheses of `C63_vectors` and `C64_incomplete_accepted` can be met. -/
example : ∃ pairs tail vs, FilePairs "Name: a\nVec: 01\nName:b".toList pairs ∧ Vectors exampleFields pairs vs tail ∧ IsIncomplete exampleFields tail ∧ tail ≠ [] ∧ vs.length = 1 := by
  refine ⟨[("Name".toList, "a".toList), ("Vec".toList, "01".toList), ("Name".toList, "b".toList)], [("Name".toList, "b".toList)], [[.inl "a".toList, .inr [1]]],
    ⟨["Name: a".toList, "Vec: 01".toList, "Name:b".toList], ?_, ?_⟩, ?_, ⟨1, [.inl "b".toList], by decide, ⟨rfl, rfl, trivial⟩⟩, by decide, rfl⟩
  · exact .cons (l := "Name: a".toList) (by decide) (.cons (l := "Vec: 01".toList) (by decide) (.last (by decide) (by decide)))
  · refine .pair ⟨"Name".toList, " a".toList, [], by decide, by decide, by decide, by decide, .inl rfl, ⟨[], [], by decide, by simp, by simp, ?_, ?_⟩, ⟨[' '], [], by decide, ?_, by simp, ?_, ?_⟩⟩
      (.pair ⟨"Vec".toList, " 01".toList, [], by decide, by decide, by decide, by decide, .inl rfl, ⟨[], [], by decide, by simp, by simp, ?_, ?_⟩, ⟨[' '], [], by decide, ?_, by simp, ?_, ?_⟩⟩
        (.pair ⟨"Name".toList, "b".toList, [], by decide, by decide, by decide, by decide, .inl rfl, ⟨[], [], by decide, by simp, by simp, ?_, ?_⟩, ⟨[], [], by decide, by simp, by simp, ?_, ?_⟩⟩ .nil))
    all_goals
      intro c hc
      first
        | (simp only [List.mem_singleton] at hc; exact .inl hc)
        | (have h := Option.some.inj hc; subst h; unfold IsBlank; decide)
  · exact .cons (vector := [("Name".toList, "a".toList), ("Vec".toList, "01".toList)]) ⟨rfl, rfl, rfl, by decide +kernel, trivial⟩ .nil

/-! ## Dumps -/

theorem pieces_nil (n : Nat) : pieces n ([] : List α) = [] := by rw [pieces]; simp

theorem pieces_cons (n : Nat) (l : List α) (h : l ≠ []) : pieces n l = l.take (n + 1) :: pieces n (l.drop (n + 1)) := by rw [pieces, if_neg h]

theorem hexdumpLoop_append (i : Nat) (a b : Bytes) : hexdumpLoop i (a ++ b) = hexdumpLoop i a ++ hexdumpLoop (i + a.length) b := by
  induction a generalizing i with
  | nil => simp [hexdumpLoop]
  | cons x a ih =>
    simp only [List.cons_append, hexdumpLoop, ih (i + 1), List.append_assoc, List.length_cons]
    rw [show i + 1 + a.length = i + (a.length + 1) by omega]

theorem and_15 (i : Nat) : i &&& 0x0F = i % 16 := Nat.and_two_pow_sub_one_eq_mod i 4
theorem and_7 (i : Nat) : i &&& 0x07 = i % 8 := Nat.and_two_pow_sub_one_eq_mod i 3

/-- Octets inside of a group. -/
theorem hexdumpLoop_group (i : Nat) (bs : Bytes) (h1 : 0 < i % 8) (h2 : i % 8 + bs.length ≤ 8) (b : UInt8) :
    putHex b ++ hexdumpLoop i bs = [' '].intercalate ((b :: bs).map putHex) := by
  induction bs generalizing i b with
  | nil => simp [hexdumpLoop, List.intercalate]
  | cons x bs ih =>
    simp only [List.length_cons] at h2
    have e : hexdumpLoop i (x :: bs) = [' '] ++ (putHex x ++ hexdumpLoop (i + 1) bs) := by
      rw [hexdumpLoop, and_15, and_7, if_neg (by omega), if_neg (by omega), List.append_assoc]
    have e2 : putHex x ++ hexdumpLoop (i + 1) bs = [' '].intercalate ((x :: bs).map putHex) := by
      cases bs with
      | nil => simp [hexdumpLoop, List.intercalate]
      | cons y bs => exact ih (i + 1) (by simp only [List.length_cons] at h2; omega) (by omega) x
    rw [e, e2]
    simp [List.intercalate]

/-- A group, a line, with the separator in front. -/
theorem hexdumpLoop_start (i : Nat) (bs : Bytes) (hb : bs ≠ []) (h8 : i % 8 = 0) (hl : bs.length ≤ 8) :
    hexdumpLoop i bs = (if i % 16 = 0 then ['\n'] else [' ', ' ']) ++ [' '].intercalate (bs.map putHex) := by
  cases bs with
  | nil => exact absurd rfl hb
  | cons b bs =>
    rw [hexdumpLoop, and_15, and_7]
    have : (if i % 16 = 0 then ['\n'] else if i % 8 = 0 then [' ', ' '] else [' ']) = (if i % 16 = 0 then ['\n'] else [' ', ' ']) := by rw [if_pos h8]
    rw [this, List.append_assoc]
    congr 1
    cases bs with
    | nil => simp [hexdumpLoop, List.intercalate]
    | cons y bs => exact hexdumpLoop_group (i + 1) _ (by omega) (by simp only [List.length_cons] at hl ⊢; omega) b

/-- The octets of one line. -/
def lineText (line : Bytes) : List Char := [' ', ' '].intercalate ((pieces 7 line).map fun group => [' '].intercalate (group.map putHex))

theorem lineText_eq (line : Bytes) (hl : line ≠ []) (h16 : line.length ≤ 16) :
    lineText line = [' '].intercalate ((line.take 8).map putHex) ++ (if line.length ≤ 8 then [] else [' ', ' '] ++ [' '].intercalate ((line.drop 8).map putHex)) := by
  unfold lineText
  rw [pieces_cons 7 line hl]
  by_cases h : line.length ≤ 8
  · rw [List.drop_eq_nil_of_le (show line.length ≤ 7 + 1 from h), pieces_nil, if_pos h]
    simp [List.intercalate]
  · have hd : line.drop 8 ≠ [] := by
      intro e
      have := congrArg List.length e
      rw [List.length_drop] at this
      simp only [List.length_nil] at this
      omega
    rw [pieces_cons 7 (line.drop 8) hd, List.drop_eq_nil_of_le (as := line.drop 8) (by rw [List.length_drop]; omega), pieces_nil, if_neg h,
      List.take_of_length_le (l := line.drop 8) (by rw [List.length_drop]; omega)]
    simp [List.intercalate]

theorem hexdumpLoop_line (i : Nat) (line : Bytes) (hl : line ≠ []) (h0 : i % 16 = 0) (h16 : line.length ≤ 16) : hexdumpLoop i line = ['\n'] ++ lineText line := by
  rw [lineText_eq line hl h16]
  have e : line = line.take 8 ++ line.drop 8 := (List.take_append_drop 8 line).symm
  have ht : line.take 8 ≠ [] := by
    cases line with
    | nil => exact absurd rfl hl
    | cons => simp
  have e2 : hexdumpLoop i line = hexdumpLoop i (line.take 8) ++ hexdumpLoop (i + (line.take 8).length) (line.drop 8) := by
    conv => lhs; rw [e]
    exact hexdumpLoop_append _ _ _
  rw [e2, hexdumpLoop_start i _ ht (by omega) (by rw [List.length_take]; omega), if_pos h0, List.append_assoc]
  congr 2
  by_cases h : line.length ≤ 8
  · rw [if_pos h, List.drop_eq_nil_of_le h]
    rfl
  · rw [if_neg h, List.length_take, Nat.min_eq_left (by omega), hexdumpLoop_start (i + 8) _ (by
      intro e
      have := congrArg List.length e
      rw [List.length_drop] at this
      simp only [List.length_nil] at this
      omega) (by omega) (by rw [List.length_drop]; omega), if_neg (by omega)]

theorem hexdumpLoop_lines : ∀ (n : Nat) (i : Nat) (bs : Bytes), bs.length ≤ n → i % 16 = 0 → bs ≠ [] →
    hexdumpLoop i bs = ['\n'] ++ ['\n'].intercalate ((pieces 15 bs).map lineText) := by
  intro n
  induction n with
  | zero => intro i bs h _ hb; exact absurd (List.eq_nil_of_length_eq_zero (Nat.le_zero.1 h)) hb
  | succ n ih =>
    intro i bs h h0 hb
    have ht : bs.take 16 ≠ [] := by
      cases bs with
      | nil => exact absurd rfl hb
      | cons => simp
    have hpos := List.length_pos_iff.2 hb
    have e2 : hexdumpLoop i bs = hexdumpLoop i (bs.take 16) ++ hexdumpLoop (i + (bs.take 16).length) (bs.drop 16) := by
      conv => lhs; rw [← List.take_append_drop 16 bs]
      exact hexdumpLoop_append _ _ _
    rw [e2, hexdumpLoop_line i _ ht h0 (by rw [List.length_take]; omega), pieces_cons 15 bs hb]
    by_cases hd : bs.drop 16 = []
    · rw [hd, pieces_nil]
      simp [hexdumpLoop, List.intercalate]
    · have hlen : 16 < bs.length := by
        apply Nat.lt_of_not_le
        intro hle
        exact hd (List.drop_eq_nil_of_le hle)
      rw [ih (i + (bs.take 16).length) (bs.drop 16) (by rw [List.length_drop]; omega) (by rw [List.length_take]; omega) hd]
      rw [pieces_cons 15 (bs.drop 16) hd]
      simp [List.intercalate]

/-- **C65.** `hexdump` writes lines of 16 octets, in two groups of eight, with single blanks between the octets, and nothing in front of or behind the dump. -/
theorem C65_hexdump (bs : Bytes) : hexdump bs = dump (fun b => hex [b]) bs := by
  have hx : (fun b => hex [b]) = putHex := by
    funext b
    simp [hex]
  rw [hx]
  unfold dump
  change _ = ['\n'].intercalate ((pieces 15 bs).map lineText)
  cases bs with
  | nil => rw [pieces_nil]; rfl
  | cons b bs =>
    have h1 := hexdumpLoop_lines _ 0 (b :: bs) (Nat.le_refl _) rfl (by simp)
    rw [hexdumpLoop, if_pos (by decide), List.append_assoc] at h1
    exact List.append_cancel_left h1

/-- **C65.** Without the blanks and newlines, the dump is what `hex` writes, so that it determines the octets. -/
theorem C65_content (bs : Bytes) : (hexdump bs).filter (fun c => c != ' ' && c != '\n') = hex bs := by
  have hput : ∀ b, (putHex b).filter (fun c => c != ' ' && c != '\n') = putHex b := by
    intro b
    obtain ⟨h, l, x, y, h1, h2, h3, _⟩ := putHex_digits b
    have key : ∀ c ∈ "0123456789abcdef".toList, (c != ' ' && c != '\n') = true := by decide
    rw [h1, List.filter_eq_self]
    intro c hc
    rcases List.mem_cons.1 hc with rfl | hc
    · exact key _ (List.mem_of_getElem? h2)
    · rw [List.mem_singleton.1 hc]; exact key _ (List.mem_of_getElem? h3)
  have loop : ∀ (bs : Bytes) (i : Nat), (hexdumpLoop i bs).filter (fun c => c != ' ' && c != '\n') = hex bs := by
    intro bs
    induction bs with
    | nil => intro i; rfl
    | cons b bs ih =>
      intro i
      unfold hexdumpLoop hex
      rw [List.filter_append, List.filter_append, hput, ih]
      split
      · rfl
      · split <;> rfl
  cases bs with
  | nil => rfl
  | cons b bs =>
    unfold hexdump hex
    rw [List.filter_append, hput, loop]

example : hexdump [0, 1, 2, 3, 4, 5, 6, 7, 8, 9, 10, 11, 12, 13, 14, 15, 255] =
    "00 01 02 03 04 05 06 07  08 09 0a 0b 0c 0d 0e 0f\nff".toList := by decide +kernel

end Nat20

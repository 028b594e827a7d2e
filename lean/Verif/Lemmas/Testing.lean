import Verif.Spec.Testing
/-!
# Lemmas about the test support library
-/

namespace Nat20.TestFormat

open Nat20.Testing

/-! ## Hexadecimal digits -/

/-- What `putHex` writes, for each of the 256 octets. -/
theorem putHex_all : ∀ n : Fin 256, ∃ h l : Fin 16, ∃ a b : Char, putHex (UInt8.ofNat n.1) = [a, b] ∧
    "0123456789abcdef".toList[h.1]? = some a ∧ "0123456789abcdef".toList[l.1]? = some b ∧ n.1 = 16 * h.1 + l.1 := by
  intro n
  refine ⟨⟨n.1 / 16, by omega⟩, ⟨n.1 % 16, by omega⟩, "0123456789abcdef".toList[n.1 / 16]!, "0123456789abcdef".toList[n.1 % 16]!, ?_, ?_, ?_, by simp only; omega⟩
  all_goals revert n; decide +kernel

theorem putHex_digits (b : UInt8) : ∃ h l x y, putHex b = [x, y] ∧ "0123456789abcdef".toList[h]? = some x ∧ "0123456789abcdef".toList[l]? = some y ∧ b = UInt8.ofNat (16 * h + l) := by
  obtain ⟨h, l, x, y, h1, h2, h3, h4⟩ := putHex_all ⟨b.toNat, b.toNat_lt⟩
  refine ⟨h.1, l.1, x, y, ?_, h2, h3, ?_⟩
  · rw [← h1]; simp
  · rw [← h4]; simp

theorem isDigit_lt {c : Char} {d : Nat} (h : IsDigit c d) : d < 16 := by
  rcases h with h | h
  all_goals
    have := (List.getElem?_eq_some_iff.1 h).1
    exact this

theorem isDigit_digitOf {c : Char} {d : Nat} (h : IsDigit c d) : digitOf c = some d := by
  have hd := isDigit_lt h
  have key : ∀ d : Fin 16, (("0123456789abcdef".toList[d.1]?).bind digitOf = some d.1) ∧ (("0123456789ABCDEF".toList[d.1]?).bind digitOf = some d.1) := by decide +kernel
  have hk := key ⟨d, hd⟩
  rcases h with h | h
  · have := hk.1; rw [h] at this; exact this
  · have := hk.2; rw [h] at this; exact this

/-- What `digitOf` says about the ASCII characters, as numbers. -/
theorem digit_table : ∀ n : Fin 128, ∀ d : Fin 16, digitOf (Char.ofNat n.1) = some d.1 →
    "0123456789abcdef".toList[d.1]? = some (Char.ofNat n.1) ∨ "0123456789ABCDEF".toList[d.1]? = some (Char.ofNat n.1) := by
  decide +kernel

theorem digitOf_lt {c : Char} {d : Nat} (h : digitOf c = some d) : c.toNat < 128 ∧ d < 16 := by
  have le : ∀ a b : Char, a ≤ b → a.toNat ≤ b.toNat := fun a b h => h
  have z0 : '0'.toNat = 48 := by decide
  have z1 : '9'.toNat = 57 := by decide
  have z2 : 'a'.toNat = 97 := by decide
  have z3 : 'f'.toNat = 102 := by decide
  have z4 : 'A'.toNat = 65 := by decide
  have z5 : 'F'.toNat = 70 := by decide
  unfold digitOf at h
  split at h
  · rename_i h'
    have h1 := le _ _ h'.1
    have h2 := le _ _ h'.2
    have := Option.some.inj h
    omega
  · split at h
    · rename_i h'
      have h1 := le _ _ h'.1
      have h2 := le _ _ h'.2
      have := Option.some.inj h
      omega
    · split at h
      · rename_i h'
        have h1 := le _ _ h'.1
        have h2 := le _ _ h'.2
        have := Option.some.inj h
        omega
      · exact absurd h (by simp)

theorem digitOf_isDigit {c : Char} {d : Nat} (h : digitOf c = some d) : IsDigit c d := by
  obtain ⟨h1, h2⟩ := digitOf_lt h
  have := digit_table ⟨c.toNat, h1⟩ ⟨d, h2⟩
  simp only [Char.ofNat_toNat] at this
  exact this h

theorem isDigit_unique {c : Char} {d e : Nat} (h : IsDigit c d) (h' : IsDigit c e) : d = e := by
  have h1 := isDigit_digitOf h
  rw [isDigit_digitOf h'] at h1
  exact (Option.some.inj h1).symm

theorem not_isDigit {c : Char} (h : ∀ d, ¬ IsDigit c d) : digitOf c = none := by
  cases hd : digitOf c with
  | none => rfl
  | some d => exact absurd (digitOf_isDigit hd) (h d)

theorem fromChars_two {a b : Char} {h l : Nat} (ha : IsDigit a h) (hb : IsDigit b l) : fromChars [a, b] = some (UInt8.ofNat (16 * h + l)) := by
  have h1 := isDigit_digitOf ha
  have h2 := isDigit_digitOf hb
  have := isDigit_lt ha
  have := isDigit_lt hb
  unfold fromChars
  simp [h1, h2]
  omega

theorem fromChars_one {a b : Char} {h : Nat} (ha : IsDigit a h) (hb : ∀ d, ¬ IsDigit b d) : fromChars [a, b] = some (UInt8.ofNat h) := by
  have h1 := isDigit_digitOf ha
  have h2 := not_isDigit hb
  have := isDigit_lt ha
  unfold fromChars
  simp [h1, h2]
  omega

theorem fromChars_none {a b : Char} (ha : ∀ d, ¬ IsDigit a d) : fromChars [a, b] = none := by
  have h1 := not_isDigit ha
  unfold fromChars
  simp [h1]

/-! ## Lines -/

theorem getline_line (l rest : List Char) (h : '\n' ∉ l) : getline (l ++ '\n' :: rest) = some (l, rest) := by
  induction l with
  | nil => rfl
  | cons c l ih =>
    simp only [List.mem_cons, not_or] at h
    rw [List.cons_append]
    unfold getline
    rw [if_neg (fun e => h.1 e.symm), ih h.2]

theorem getline_last (l : List Char) (h : '\n' ∉ l) (hl : l ≠ []) : getline l = some (l, []) := by
  induction l with
  | nil => exact absurd rfl hl
  | cons c l ih =>
    simp only [List.mem_cons, not_or] at h
    unfold getline
    rw [if_neg (fun e => h.1 e.symm)]
    cases l with
    | nil => rfl
    | cons d l => rw [ih h.2 (by simp)]

theorem first_split (x : Char) : ∀ f : List Char, x ∈ f → ∃ l r, f = l ++ x :: r ∧ x ∉ l := by
  intro f
  induction f with
  | nil => intro h; cases h
  | cons c f ih =>
    intro h
    by_cases hc : c = x
    · exact ⟨[], f, by rw [hc]; rfl, by simp⟩
    · rcases List.mem_cons.1 h with h | h
      · exact absurd h.symm hc
      · obtain ⟨l, r, e, hn⟩ := ih h
        refine ⟨c :: l, r, by rw [e]; rfl, ?_⟩
        simp only [List.mem_cons, not_or]
        exact ⟨fun e => hc e.symm, hn⟩

theorem lines_exist : ∀ (n : Nat) (file : List Char), file.length ≤ n → ∃ ls, Lines file ls := by
  intro n
  induction n with
  | zero =>
    intro file h
    rw [List.eq_nil_of_length_eq_zero (Nat.le_zero.1 h)]
    exact ⟨[], .nil⟩
  | succ n ih =>
    intro file h
    by_cases hm : '\n' ∈ file
    · obtain ⟨l, rest, he, hl⟩ := first_split '\n' file hm
      have : rest.length ≤ n := by
        rw [he] at h
        simp only [List.length_append, List.length_cons] at h
        omega
      obtain ⟨ls, hls⟩ := ih rest this
      exact ⟨l :: ls, he ▸ .cons hl hls⟩
    · by_cases hn : file = []
      · exact ⟨[], hn ▸ .nil⟩
      · exact ⟨[file], .last hm hn⟩

/-! ## Trimming -/

theorem blank_iff (c : Char) : (c != ' ' && c != '\t') = false ↔ IsBlank c := by
  unfold IsBlank
  by_cases h1 : c = ' '
  · simp [h1]
  · by_cases h2 : c = '\t' <;> simp [h1, h2]

theorem findFirstNotBlank_eq (a t : List Char) (ha : ∀ c ∈ a, IsBlank c) : findFirstNotBlank (a ++ t) = (findFirstNotBlank t).map (· + a.length) := by
  induction a with
  | nil => simp
  | cons x a ih =>
    have hx := (blank_iff x).2 (ha x (by simp))
    have := ih (fun c hc => ha c (by simp [hc]))
    unfold findFirstNotBlank at this ⊢
    rw [List.cons_append, List.findIdx?_cons, if_neg (by rw [hx]; decide), this]
    cases List.findIdx? (fun c => c != ' ' && c != '\t') t <;> simp
    omega

theorem findFirstNotBlank_head (c : Char) (t : List Char) (h : ¬ IsBlank c) : findFirstNotBlank (c :: t) = some 0 := by
  unfold findFirstNotBlank
  rw [List.findIdx?_cons, if_pos]
  cases hb : (c != ' ' && c != '\t')
  · exact absurd ((blank_iff c).1 hb) h
  · rfl

theorem trim_eq (s t : List Char) (h : Trimmed s t) : trim s = t := by
  obtain ⟨a, b, rfl, ha, hb, hh, hl⟩ := h
  cases t with
  | nil =>
    have : findFirstNotBlank (a ++ [] ++ b) = none := by
      rw [List.append_nil]
      have := findFirstNotBlank_eq (a ++ b) [] (by intro c hc; rcases List.mem_append.1 hc with h | h; exact ha c h; exact hb c h)
      rw [List.append_nil] at this
      rw [this]; rfl
    unfold trim
    rw [this]
  | cons c t =>
    have h1 : findFirstNotBlank (a ++ c :: t ++ b) = some a.length := by
      rw [List.append_assoc, findFirstNotBlank_eq a _ ha, List.cons_append, findFirstNotBlank_head c _ (hh c rfl)]
      simp
    have h2 : findLastNotBlank (a ++ c :: t ++ b) = some (a.length + t.length) := by
      unfold findLastNotBlank
      rw [List.reverse_append, findFirstNotBlank_eq _ _ (by intro x hx; exact hb x (List.mem_reverse.1 hx)), List.reverse_append]
      obtain ⟨z, hz⟩ : ∃ z, (c :: t).getLast? = some z := ⟨(c :: t).getLast (by simp), List.getLast?_eq_some_getLast (by simp)⟩
      obtain ⟨u, hu⟩ : ∃ u, (c :: t).reverse = z :: u := by
        rw [← List.head?_reverse] at hz
        cases hr : (c :: t).reverse with
        | nil => simp at hr
        | cons y u => rw [hr] at hz; simp only [List.head?_cons, Option.some.injEq] at hz; exact ⟨u, by rw [hz]⟩
      rw [hu, List.cons_append, findFirstNotBlank_head z _ (hl z hz)]
      simp
      omega
    unfold trim
    rw [h1]
    simp only [h2]
    rw [List.append_assoc, List.drop_left]
    have : a.length + t.length - a.length + 1 = (c :: t).length := by simp only [List.length_cons]; omega
    rw [this, List.take_left]

theorem trimmed_exists (s : List Char) : ∃ t, Trimmed s t := by
  -- blanks at the end
  have right : ∀ (n : Nat) (s : List Char), s.length = n → ∃ t b, s = t ++ b ∧ (∀ c ∈ b, IsBlank c) ∧ (∀ c, t.getLast? = some c → ¬ IsBlank c) := by
    intro n
    induction n with
    | zero =>
      intro s h
      exact ⟨[], [], by rw [List.eq_nil_of_length_eq_zero h]; rfl, by simp, by simp⟩
    | succ n ih =>
      intro s h
      have hs : s ≠ [] := by intro e; rw [e] at h; simp at h
      by_cases hb : IsBlank (s.getLast hs)
      · obtain ⟨t, b, e, hb', ht⟩ := ih s.dropLast (by rw [List.length_dropLast]; omega)
        refine ⟨t, b ++ [s.getLast hs], ?_, ?_, ht⟩
        · rw [← List.append_assoc, ← e, List.dropLast_concat_getLast]
        · intro c hc
          rcases List.mem_append.1 hc with hc | hc
          · exact hb' c hc
          · rw [List.mem_singleton.1 hc]; exact hb
      · refine ⟨s, [], by simp, by simp, ?_⟩
        intro c hc
        rw [List.getLast?_eq_some_getLast hs] at hc
        rw [← Option.some.inj hc]; exact hb
  induction s with
  | nil => exact ⟨[], [], [], rfl, by simp, by simp, by simp, by simp⟩
  | cons c s ih =>
    by_cases hc : IsBlank c
    · obtain ⟨t, a, b, e, ha, hb, hh, hl⟩ := ih
      refine ⟨t, c :: a, b, by rw [e]; simp, ?_, hb, hh, hl⟩
      intro x hx
      rcases List.mem_cons.1 hx with h | h
      · rw [h]; exact hc
      · exact ha x h
    · obtain ⟨t, b, e, hb, ht⟩ := right _ (c :: s) rfl
      refine ⟨t, [], b, by rw [e]; simp, by simp, hb, ?_, ht⟩
      intro x hx
      cases t with
      | nil => simp at hx
      | cons y t =>
        simp only [List.head?_cons, Option.some.injEq] at hx
        rw [List.cons_append] at e
        rw [← hx, ← (List.cons.inj e).1]; exact hc

/-! ## Lines of a file -/

theorem findIdx?_split (p : Char → Bool) (k rest : List Char) (x : Char) (hk : ∀ c ∈ k, p c = false) (hx : p x = true) : (k ++ x :: rest).findIdx? p = some k.length := by
  induction k with
  | nil => simp [List.findIdx?_cons, hx]
  | cons c k ih =>
    rw [List.cons_append, List.findIdx?_cons, if_neg (by rw [hk c (by simp)]; decide), ih (fun d hd => hk d (by simp [hd]))]
    simp

theorem findIdx?_absent (p : Char → Bool) (k : List Char) (hk : ∀ c ∈ k, p c = false) : k.findIdx? p = none := by
  rw [List.findIdx?_eq_none_iff]
  exact hk

theorem eq_false_of_not_mem {x : Char} {k : List Char} (h : x ∉ k) : ∀ c ∈ k, (c == x) = false := by
  intro c hc
  simp only [beq_eq_false_iff_ne, ne_eq]
  intro e
  exact h (e ▸ hc)

theorem removeComment_eq (text comment : List Char) (ht : '#' ∉ text) (hc : IsComment comment) : removeComment (text ++ comment) = text := by
  unfold removeComment
  rcases hc with rfl | hc
  · rw [List.append_nil, findIdx?_absent _ _ (eq_false_of_not_mem ht)]
  · cases comment with
    | nil => simp at hc
    | cons x comment =>
      simp only [List.head?_cons, Option.some.injEq] at hc
      rw [findIdx?_split _ text comment x (eq_false_of_not_mem ht) (by rw [hc]; rfl)]
      simp

theorem pair_eq (line key value : List Char) (h : IsPair line key value) : trimAndRemoveComments line = some (key, value) := by
  obtain ⟨k, v, comment, rfl, hk, hk', hv, hc, tk, tv⟩ := h
  unfold trimAndRemoveComments
  rw [removeComment_eq (k ++ ':' :: v) comment (by simp only [List.mem_append, List.mem_cons, not_or]; exact ⟨hk', by decide, hv⟩) hc]
  simp only [findIdx?_split (· == ':') k v ':' (eq_false_of_not_mem hk) rfl]
  rw [List.take_left, trim_eq k key tk]
  have : (k ++ ':' :: v).drop (k.length + 1) = v := by
    rw [← List.drop_drop, List.drop_left]; rfl
  rw [this, trim_eq v value tv]

theorem ignored_eq (line : List Char) (h : IsIgnored line) : trimAndRemoveComments line = none := by
  obtain ⟨text, comment, rfl, h1, h2, hc⟩ := h
  unfold trimAndRemoveComments
  rw [removeComment_eq text comment h2 hc]
  simp only [findIdx?_absent (· == ':') text (eq_false_of_not_mem h1)]

/-- Every line is a pair or is ignored. -/
theorem line_cases (line : List Char) : (∃ key value, IsPair line key value) ∨ IsIgnored line := by
  have comment : ∃ text comment, line = text ++ comment ∧ '#' ∉ text ∧ IsComment comment := by
    by_cases h : '#' ∈ line
    · obtain ⟨l, r, e, hl⟩ := first_split '#' line h
      exact ⟨l, '#' :: r, e, hl, .inr rfl⟩
    · exact ⟨line, [], by simp, h, .inl rfl⟩
  obtain ⟨text, comment, e, ht, hc⟩ := comment
  by_cases h : ':' ∈ text
  · obtain ⟨k, v, e', hk⟩ := first_split ':' text h
    obtain ⟨key, tk⟩ := trimmed_exists k
    obtain ⟨value, tv⟩ := trimmed_exists v
    rw [e'] at ht
    simp only [List.mem_append, List.mem_cons, not_or] at ht
    exact .inl ⟨key, value, k, v, comment, by rw [e, e'], hk, ht.1, ht.2.2, hc, tk, tv⟩
  · exact .inr ⟨text, comment, e, h, ht, hc⟩

theorem linePairs_exist (ls : List (List Char)) : ∃ ps, LinePairs ls ps := by
  induction ls with
  | nil => exact ⟨[], .nil⟩
  | cons l ls ih =>
    obtain ⟨ps, h⟩ := ih
    rcases line_cases l with ⟨k, v, hp⟩ | hi
    · exact ⟨(k, v) :: ps, .pair hp h⟩
    · exact ⟨ps, .ignored hi h⟩

theorem filePairs_exist (file : List Char) : ∃ ps, FilePairs file ps := by
  obtain ⟨ls, h⟩ := lines_exist _ file (Nat.le_refl _)
  obtain ⟨ps, h'⟩ := linePairs_exist ls
  exact ⟨ps, ls, h, h'⟩

/-- What `getline` does to the lines of the file. -/
theorem getline_lines {file : List Char} {l : List Char} {ls : List (List Char)} (h : Lines file (l :: ls)) : ∃ rest, getline file = some (l, rest) ∧ Lines rest ls := by
  cases h with
  | last h1 h2 => exact ⟨[], getline_last _ h1 h2, .nil⟩
  | cons h1 h2 => exact ⟨_, getline_line _ _ h1, h2⟩

theorem nextPair_step {file line rest : List Char} (h : getline file = some (line, rest)) :
    nextPair file = (match trimAndRemoveComments line with
      | some pair => some (pair, rest)
      | none => nextPair rest) := by
  rw [nextPair]
  split
  · rename_i h'; rw [h] at h'; exact absurd h' (by simp)
  · rename_i h'
    rw [h] at h'
    simp only [Option.some.injEq, Prod.mk.injEq] at h'
    obtain ⟨rfl, rfl⟩ := h'
    rfl

theorem nextPair_nil : nextPair [] = none := by
  rw [nextPair]
  split
  · rfl
  · rename_i h; exact absurd h (by simp [getline])

theorem nextPair_pairs {file : List Char} {ps : List (List Char × List Char)} (h : FilePairs file ps) :
    (ps = [] ∧ nextPair file = none) ∨ (∃ p ps' rest, ps = p :: ps' ∧ nextPair file = some (p, rest) ∧ rest.length < file.length ∧ FilePairs rest ps') := by
  obtain ⟨ls, hl, hp⟩ := h
  induction ls generalizing file with
  | nil =>
    cases hl
    cases hp
    exact .inl ⟨rfl, nextPair_nil⟩
  | cons l ls ih =>
    obtain ⟨rest, hg, hr⟩ := getline_lines hl
    have hlt := getline_shorter hg
    rw [nextPair_step hg]
    cases hp with
    | @pair _ k v _ ps' h1 h2 =>
      rw [pair_eq _ _ _ h1]
      exact .inr ⟨(k, v), ps', rest, rfl, rfl, hlt, ls, hr, h2⟩
    | ignored h1 h2 =>
      rw [ignored_eq _ h1]
      rcases ih hr h2 with h | ⟨p, ps', rest', e, h3, h4, h5⟩
      · exact .inl h
      · exact .inr ⟨p, ps', rest', e, h3, by omega, h5⟩

/-! ## Reading fields -/

theorem nextFields_error {V : Type} (fs : List (Field V)) (e : ErrorCode) (he : e ≠ .none) (file : List Char) :
    (nextFields fs e file).2 = (e, file) := by
  induction fs with
  | nil => rfl
  | cons f fs ih =>
    have : nextField f e file = (none, e, file) := by unfold nextField; rw [if_pos he]
    simp only [nextFields, this]
    exact ih

/-- The outcomes of reading fields: all of them, not enough pairs, or a bad pair. -/
theorem nextFields_ok {V : Type} (fs : List (Field V)) (g rest : List (List Char × List Char)) (vs : List V) (hr : Reads fs g vs) (file : List Char) (hf : FilePairs file (g ++ rest)) :
    ∃ file', nextFields fs .none file = (vs.map some, .none, file') ∧ FilePairs file' rest ∧ file'.length + fs.length ≤ file.length := by
  induction fs generalizing g vs file with
  | nil =>
    cases g <;> cases vs <;> simp only [Reads] at hr
    exact ⟨file, rfl, hf, by simp⟩
  | cons f fs ih =>
    cases g with
    | nil => simp only [Reads] at hr
    | cons p g =>
      cases vs with
      | nil => simp only [Reads] at hr
      | cons v vs =>
        simp only [Reads] at hr
        rcases nextPair_pairs hf with ⟨e, _⟩ | ⟨p', ps', file1, e, h1, h2, h3⟩
        · simp at e
        · rw [List.cons_append] at e
          obtain ⟨rfl, rfl⟩ := List.cons.inj e
          obtain ⟨file', h4, h5, h6⟩ := ih g vs hr.2.2 file1 h3
          refine ⟨file', ?_, h5, by simp only [List.length_cons]; omega⟩
          have : nextField f .none file = (some v, .none, file1) := by
            unfold nextField
            rw [if_neg (by simp), h1]
            simp only
            rw [if_neg (by simp [hr.1]), hr.2.1]
          simp only [nextFields, this, h4]
          rfl

theorem nextFields_incomplete {V : Type} (fs : List (Field V)) (k : Nat) (hk : k < fs.length) (g : List (List Char × List Char)) (vs : List V) (hr : Reads (fs.take k) g vs)
    (file : List Char) (hf : FilePairs file g) : (nextFields fs .none file).2.1 = .endOfFile := by
  induction fs generalizing g vs file k with
  | nil => simp at hk
  | cons f fs ih =>
    cases k with
    | zero =>
      simp only [List.take_zero] at hr
      cases g <;> cases vs <;> simp only [Reads] at hr
      rcases nextPair_pairs hf with ⟨_, h⟩ | ⟨_, _, _, e, _⟩
      · have : nextField f .none file = (none, .endOfFile, []) := by
          unfold nextField
          rw [if_neg (by simp), h]
        simp only [nextFields, this]
        exact congrArg Prod.fst (nextFields_error fs .endOfFile (by simp) _)
      · simp at e
    | succ k =>
      rw [List.take_succ_cons] at hr
      cases g with
      | nil => simp only [Reads] at hr
      | cons p g =>
        cases vs with
        | nil => simp only [Reads] at hr
        | cons v vs =>
          simp only [Reads] at hr
          rcases nextPair_pairs hf with ⟨e, _⟩ | ⟨p', ps', file1, e, h1, h2, h3⟩
          · simp at e
          · obtain ⟨rfl, rfl⟩ := List.cons.inj e
            have : nextField f .none file = (some v, .none, file1) := by
              unfold nextField
              rw [if_neg (by simp), h1]
              simp only
              rw [if_neg (by simp [hr.1]), hr.2.1]
            simp only [nextFields, this]
            exact ih k (by simpa using hk) g vs hr.2.2 file1 h3

theorem nextFields_bad {V : Type} (fs : List (Field V)) (k : Nat) (f : Field V) (hk : fs[k]? = some f) (g rest : List (List Char × List Char)) (bad : List Char × List Char) (vs : List V)
    (hr : Reads (fs.take k) g vs) (e : ErrorCode) (hb : bad.1 ≠ f.key ∧ e = .unexpectedKey ∨ bad.1 = f.key ∧ f.parse bad.2 = none ∧ e = .parsingError)
    (file : List Char) (hf : FilePairs file (g ++ bad :: rest)) : (nextFields fs .none file).2.1 = e := by
  induction fs generalizing g vs file k with
  | nil => simp at hk
  | cons f' fs ih =>
    cases k with
    | zero =>
      simp only [List.getElem?_cons_zero, Option.some.injEq] at hk
      subst hk
      simp only [List.take_zero] at hr
      cases g <;> cases vs <;> simp only [Reads] at hr
      rcases nextPair_pairs hf with ⟨e, _⟩ | ⟨p', ps', file1, e', h1, h2, h3⟩
      · simp at e
      · rw [List.nil_append] at e'
        obtain ⟨rfl, rfl⟩ := List.cons.inj e'
        have he : e ≠ .none := by rcases hb with ⟨_, rfl⟩ | ⟨_, _, rfl⟩ <;> simp
        have : nextField f' .none file = (none, e, file1) := by
          unfold nextField
          rw [if_neg (by simp), h1]
          simp only
          rcases hb with ⟨hb, rfl⟩ | ⟨hb, hb', rfl⟩
          · rw [if_pos hb]
          · rw [if_neg (by simp [hb]), hb']
        simp only [nextFields, this]
        exact congrArg Prod.fst (nextFields_error fs e he _)
    | succ k =>
      rw [List.take_succ_cons] at hr
      rw [List.getElem?_cons_succ] at hk
      cases g with
      | nil => simp only [Reads] at hr
      | cons p g =>
        cases vs with
        | nil => simp only [Reads] at hr
        | cons v vs =>
          simp only [Reads] at hr
          rcases nextPair_pairs hf with ⟨e, _⟩ | ⟨p', ps', file1, e', h1, h2, h3⟩
          · simp at e
          · rw [List.cons_append] at e'
            obtain ⟨rfl, rfl⟩ := List.cons.inj e'
            have : nextField f' .none file = (some v, .none, file1) := by
              unfold nextField
              rw [if_neg (by simp), h1]
              simp only
              rw [if_neg (by simp [hr.1]), hr.2.1]
            simp only [nextFields, this]
            exact ih k hk g vs hr.2.2 file1 h3

/-- Some pairs are a vector and something, or incomplete, or bad. -/
theorem reads_cases {V : Type} (fs : List (Field V)) (ps : List (List Char × List Char)) :
    (∃ g rest vs, ps = g ++ rest ∧ Reads fs g vs) ∨ IsIncomplete fs ps ∨ ∃ e, IsBad fs ps e := by
  induction fs generalizing ps with
  | nil => exact .inl ⟨[], ps, [], rfl, trivial⟩
  | cons f fs ih =>
    cases ps with
    | nil => exact .inr (.inl ⟨0, [], by simp, by simp [Reads]⟩)
    | cons p ps =>
      by_cases hk : p.1 = f.key
      · cases hp : f.parse p.2 with
        | none => exact .inr (.inr ⟨.parsingError, 0, [], p, ps, [], f, rfl, by simp [Reads], rfl, .inr ⟨hk, hp, rfl⟩⟩)
        | some v =>
          rcases ih ps with ⟨g, rest, vs, e, h⟩ | ⟨k, vs, h1, h2⟩ | ⟨e, k, good, bad, rest, vs, f', h1, h2, h3, h4⟩
          · exact .inl ⟨p :: g, rest, v :: vs, by rw [e]; rfl, hk, hp, h⟩
          · exact .inr (.inl ⟨k + 1, v :: vs, by simpa using h1, by rw [List.take_succ_cons]; exact ⟨hk, hp, h2⟩⟩)
          · exact .inr (.inr ⟨e, k + 1, p :: good, bad, rest, v :: vs, f', by rw [h1]; rfl, by rw [List.take_succ_cons]; exact ⟨hk, hp, h2⟩, by rw [List.getElem?_cons_succ]; exact h3, h4⟩)
      · exact .inr (.inr ⟨.unexpectedKey, 0, [], p, ps, [], f, rfl, by simp [Reads], rfl, .inl ⟨hk, rfl⟩⟩)

theorem vectors_append {V : Type} {fields : List (Field V)} {ps tail : List (List Char × List Char)} {vs : List (List V)} (h : Vectors fields ps vs tail) :
    ∃ front, ps = front ++ tail := by
  induction h with
  | nil => exact ⟨[], rfl⟩
  | cons _ _ ih => obtain ⟨f, e⟩ := ih; exact ⟨_ ++ f, by rw [e, List.append_assoc]⟩

theorem vectors_exist {V : Type} (fields : List (Field V)) (hne : fields ≠ []) : ∀ (n : Nat) (ps : List (List Char × List Char)), ps.length ≤ n →
    ∃ vs tail, Vectors fields ps vs tail ∧ (IsIncomplete fields tail ∨ ∃ e, IsBad fields tail e) := by
  intro n
  induction n with
  | zero =>
    intro ps h
    rw [List.eq_nil_of_length_eq_zero (Nat.le_zero.1 h)]
    refine ⟨[], [], .nil, .inl ⟨0, [], ?_, by simp [Reads]⟩⟩
    exact List.length_pos_iff.2 hne
  | succ n ih =>
    intro ps h
    rcases reads_cases fields ps with ⟨g, rest, v, e, hr⟩ | h' | h'
    · have hg : 0 < g.length := by
        cases fields with
        | nil => exact absurd rfl hne
        | cons f fs =>
          cases g with
          | nil => simp only [Reads] at hr
          | cons => simp
      obtain ⟨vs, tail, h1, h2⟩ := ih rest (by rw [e, List.length_append] at h; omega)
      exact ⟨v :: vs, tail, e ▸ .cons hr h1, h2⟩
    · exact ⟨[], ps, .nil, .inl h'⟩
    · exact ⟨[], ps, .nil, .inr h'⟩

/-- The loop up to the tail. -/
theorem readLoop_vectors {V : Type} {fields : List (Field V)} (hne : fields ≠ []) {ps tail : List (List Char × List Char)} {vs : List (List V)} (h : Vectors fields ps vs tail) :
    ∀ (file : List Char) (n : Nat) (acc : List (List (Option V))), FilePairs file ps → file.length < n →
      ∃ file' n', FilePairs file' tail ∧ file'.length < n' ∧ readLoop fields n acc file = readLoop fields n' (acc ++ vs.map (·.map some)) file' := by
  induction h with
  | nil =>
    intro file n acc hf hn
    exact ⟨file, n, hf, hn, by simp⟩
  | @cons g ps tail v vs hr _ ih =>
    intro file n acc hf hn
    obtain ⟨file', h1, h2, h3⟩ := nextFields_ok fields g ps v hr file hf
    have hpos := List.length_pos_iff.2 hne
    obtain ⟨n, rfl⟩ : ∃ m, n = m + 1 := ⟨n - 1, by omega⟩
    obtain ⟨file2, n2, h4, h5, h6⟩ := ih file' n (acc ++ [v.map some]) h2 (by omega)
    refine ⟨file2, n2, h4, h5, ?_⟩
    have hv : nextVector fields file = (.ok (v.map some), file') := by
      unfold nextVector
      rw [if_neg (by omega), h1]
      simp
    rw [readLoop, hv]
    simp only
    rw [h6]
    simp

end Nat20.TestFormat

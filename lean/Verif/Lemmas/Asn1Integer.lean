import Verif.Lemmas.Der
import Verif.Spec.Asn1
/-!
# Lemmas about INTEGER
-/

namespace Nat20

open Der

/-! ## Reading backwards from the end -/

/-- Stepping back from `end_` the bytes `rev` are read, the least significant one first. -/
def ReadsBack (p : Ptr) (inc end_ : Int) (rev : Bytes) : Prop :=
  ∀ i b, rev[i]? = some b → p.read (end_ - (i + 1 : Nat) * inc) = .ok b

theorem ReadsBack.prefix {p : Ptr} {inc end_ : Int} {l r : Bytes} (h : ReadsBack p inc end_ (l ++ r)) :
    ReadsBack p inc end_ l := by
  intro i b hi
  apply h
  rw [List.getElem?_append_left, hi]
  rcases Nat.lt_or_ge i l.length with h | h
  · exact h
  · rw [List.getElem?_eq_none h] at hi; cases hi

theorem ReadsBack.tail {p : Ptr} {inc end_ : Int} {b : UInt8} {r : Bytes} (h : ReadsBack p inc end_ (b :: r)) :
    ReadsBack p inc (end_ - inc) r := by
  intro i c hi
  have := h (i + 1) c (by simpa using hi)
  rw [← this]
  congr 1
  have e : ((i + 1 + 1 : Nat) : Int) = (i + 1 : Nat) + 1 := by omega
  rw [e, Int.add_mul, Int.one_mul]; omega

theorem readsBack_be (p : Ptr) (n : Nat) (h : n ≤ p.data.length) : ReadsBack p 1 n (p.data.take n).reverse := by
  intro i b hi
  have hlen : i < n := by
    rcases Nat.lt_or_ge i n with h1 | h1
    · exact h1
    · rw [List.getElem?_eq_none (by simp; omega)] at hi; cases hi
  have hl : (p.data.take n).length = n := by simp; omega
  rw [List.getElem?_reverse (by omega), hl, List.getElem?_take, if_pos (by omega)] at hi
  unfold Ptr.read
  rw [if_pos (by omega)]
  have e : ((n : Int) - (i + 1 : Nat) * 1).toNat = n - 1 - i := by omega
  rw [e, hi]

theorem readsBack_le (p : Ptr) (n : Nat) : ReadsBack p (-1) (-1) (p.data.take n) := by
  intro i b hi
  rw [List.getElem?_take] at hi
  split at hi
  · unfold Ptr.read
    have e : (-1 : Int) - (i + 1 : Nat) * -1 = i := by omega
    rw [e, if_pos (by omega)]
    simp only [Int.toNat_natCast, hi]
  · cases hi

/-! ## The loops -/

theorem prepends_writeLoop (p : Ptr) (inc : Int) (rev : Bytes) : ∀ end_ : Int, ReadsBack p inc end_ rev →
    Prepends (writeLoop p inc end_ rev.length) rev.reverse := by
  induction rev with
  | nil => intro end_ _; exact Prepends.pure
  | cons b r ih =>
    intro end_ h
    rw [List.length_cons, writeLoop]
    have h0 : p.read (end_ - inc) = .ok b := by
      have := h 0 b rfl
      simpa using this
    refine Prepends.lift_bind h0 ?_
    rw [List.reverse_cons]
    exact (prepends_byte b).bind (ih _ h.tail)

theorem stripLoop_ok (p : Ptr) (pad : UInt8) (inc end_ : Int) (l : Bytes) (h : ReadsBack p inc end_ l.reverse)
    (hadj : (∃ a, p.read end_ = .ok a) ∨ l.dropWhile (fun b => b == pad) ≠ []) :
    stripLoop p pad inc end_ l.length = .ok (l.dropWhile (fun b => b == pad)).length := by
  induction l with
  | nil =>
    rcases hadj with ⟨a, ha⟩ | h
    · show (do let _ ← p.read end_; Pure.pure 0 : Except UB Nat) = _
      rw [ha]; rfl
    · exact absurd rfl h
  | cons b t ih =>
    rw [List.length_cons, stripLoop]
    have hr : p.read (end_ - (t.length + 1) * inc) = .ok b := by
      have := h t.length b (by simp)
      simpa using this
    rw [hr]
    show (if b = pad then stripLoop p pad inc end_ t.length else Pure.pure (t.length + 1)) = _
    rw [List.dropWhile_cons] at hadj ⊢
    rw [List.reverse_cons] at h
    by_cases hb : b = pad
    · rw [if_pos hb]
      simp only [hb, beq_self_eq_true, if_true] at hadj ⊢
      exact ih h.prefix hadj
    · rw [if_neg hb, if_neg (by simpa using hb)]; rfl

theorem stripLoop_ub (p : Ptr) (pad : UInt8) (inc end_ : Int) (l : Bytes) (h : ReadsBack p inc end_ l.reverse)
    (hadj : p.read end_ = .error .oobRead) (hall : l.dropWhile (fun b => b == pad) = []) :
    stripLoop p pad inc end_ l.length = .error .oobRead := by
  induction l with
  | nil =>
    show (do let _ ← p.read end_; Pure.pure 0 : Except UB Nat) = _
    rw [hadj]; rfl
  | cons b t ih =>
    rw [List.length_cons, stripLoop]
    have hr : p.read (end_ - (t.length + 1) * inc) = .ok b := by
      have := h t.length b (by simp)
      simpa using this
    rw [hr]
    show (if b = pad then stripLoop p pad inc end_ t.length else Pure.pure (t.length + 1)) = _
    rw [List.dropWhile_cons] at hall
    rw [List.reverse_cons] at h
    by_cases hb : b = pad
    · rw [if_pos hb]
      simp only [hb, beq_self_eq_true, if_true] at hall
      exact ih h.prefix hall
    · rw [if_neg (by simpa using hb)] at hall; cases hall

/-! ## Contents -/

/-- The contents octets the code produces from bytes given most significant first. -/
def strippedContent (negative : Bool) (be : Bytes) : Bytes :=
  let pad : UInt8 := if negative then 0xff else 0
  match be.dropWhile (fun b => b == pad) with
  | [] => [pad]
  | b :: r => if (if negative then b.toNat < 128 else 128 ≤ b.toNat) then pad :: b :: r else b :: r

theorem and_80 (b : UInt8) : (b &&& 0x80 != 0) = decide (128 ≤ b.toNat) := by
  have : ∀ i : Fin 256, ((UInt8.ofNat i.val) &&& 0x80 != 0) = decide (128 ≤ (UInt8.ofNat i.val).toNat) := by decide +kernel
  have h := this ⟨b.toNat, b.toNat_lt⟩
  simpa using h

theorem and_80' (b : UInt8) : (b &&& 0x80 == 0) = decide (b.toNat < 128) := by
  have h := and_80 b
  have : (b &&& 0x80 == 0) = !(b &&& 0x80 != 0) := by simp [bne]
  rw [this, h]
  by_cases h : 128 ≤ b.toNat
  · simp [h]
  · simp [h]; omega

/-- The sign decision: for a non-empty slice it is the top bit of the most significant byte. -/
def isNegative (twoComplement : Bool) (be : Bytes) : Bool :=
  twoComplement && (match be with | [] => false | b :: _ => decide (128 ≤ b.toNat))

theorem integerNegative_ok (p : Ptr) (tc : Bool) (inc end_ : Int) (be : Bytes) (h : ReadsBack p inc end_ be.reverse)
    (hne : tc = true → be ≠ []) : integerNegative p tc (end_ - be.length * inc) = .ok (isNegative tc be) := by
  cases tc with
  | false => rfl
  | true =>
    cases be with
    | nil => exact absurd rfl (hne rfl)
    | cons b t =>
      have hr : p.read (end_ - (t.length + 1 : Nat) * inc) = .ok b := h t.length b (by simp)
      rw [integerNegative, if_pos rfl, List.length_cons, hr]
      show Except.ok (b &&& 0x80 != 0) = _
      rw [and_80]; rfl

theorem dropWhile_suffix_of {α : Type} (q : α → Bool) (l : List α) : ∃ pre, l = pre ++ l.dropWhile q :=
  ⟨l.takeWhile q, (List.takeWhile_append_dropWhile).symm⟩

theorem ReadsBack.suffix {p : Ptr} {inc end_ : Int} {l d pre : Bytes} (h : ReadsBack p inc end_ l.reverse)
    (e : l = pre ++ d) : ReadsBack p inc end_ d.reverse := by
  subst e; rw [List.reverse_append] at h; exact h.prefix

theorem prepends_integerContent (p : Ptr) (size : UInt64) (le tc : Bool) (be : Bytes)
    (hlen : be.length = size.toNat)
    (h : ReadsBack p (if le then -1 else 1) (if le then -1 else (size.toNat : Int)) be.reverse)
    (hne : tc = true → be ≠ [])
    (hadj : (∃ a, p.read (if le then -1 else (size.toNat : Int)) = .ok a) ∨
      be.dropWhile (fun b => b == if isNegative tc be then 0xff else 0) ≠ []) :
    Prepends (asn1IntegerContent p size le tc) (strippedContent (isNegative tc be) be) := by
  unfold asn1IntegerContent
  simp only
  generalize hinc : (if le then (-1 : Int) else 1) = inc at *
  generalize hend : (if le then (-1 : Int) else (size.toNat : Int)) = end_ at *
  have h1 := integerNegative_ok p tc inc end_ be h hne
  rw [hlen] at h1
  refine Prepends.lift_bind h1 ?_
  generalize hpad : (if isNegative tc be then (0xff : UInt8) else 0) = pad at *
  have h2 := stripLoop_ok p pad inc end_ be h hadj
  rw [hlen] at h2
  refine Prepends.lift_bind h2 ?_
  obtain ⟨pre, hpre⟩ := dropWhile_suffix_of (fun b => b == pad) be
  have hd := h.suffix hpre
  unfold strippedContent
  simp only [hpad]
  generalize be.dropWhile (fun b => b == pad) = d at *
  have hw := prepends_writeLoop p inc d.reverse end_ hd
  rw [List.length_reverse, List.reverse_reverse] at hw
  cases d with
  | nil =>
    refine Prepends.lift_bind (v := true) rfl ?_
    refine (hw.bind (prepends_byte pad)).congr ?_
    simp
  | cons b t =>
    have hr : p.read (end_ - (t.length + 1 : Nat) * inc) = .ok b := hd t.length b (by simp)
    have h3 : integerAddExtra p (isNegative tc be) (b :: t).length (end_ - (b :: t).length * inc)
        = .ok (decide (if isNegative tc be then b.toNat < 128 else 128 ≤ b.toNat)) := by
      rw [integerAddExtra, if_neg (by simp), List.length_cons, hr]
      show Except.ok (if isNegative tc be then (b &&& 0x80 == 0) else (b &&& 0x80 != 0)) = _
      rw [and_80, and_80']
      cases isNegative tc be <;> simp
    refine Prepends.lift_bind h3 ?_
    by_cases hx : (if isNegative tc be then b.toNat < 128 else 128 ≤ b.toNat)
    · simp only [hx, decide_true, if_true]
      exact (hw.bind (prepends_byte pad)).congr (by simp)
    · simp only [hx, decide_false, if_false, Bool.false_eq_true]
      exact (hw.bind Prepends.pure).congr (by simp)

theorem liftM_ok_bind {α β : Type} (v : α) (f : α → W β) : (liftM (Except.ok v : Except UB α) >>= f : W β) = f v := rfl

/-- Without a readable neighbour an INTEGER all of whose bytes are insignificant is undefined behaviour. -/
theorem integerContent_ub (p : Ptr) (size : UInt64) (le tc : Bool) (be : Bytes) (s : Option Stream)
    (hlen : be.length = size.toNat)
    (h : ReadsBack p (if le then -1 else 1) (if le then -1 else (size.toNat : Int)) be.reverse)
    (hne : tc = true → be ≠ [])
    (hadj : p.read (if le then -1 else (size.toNat : Int)) = .error .oobRead)
    (hall : be.dropWhile (fun b => b == if isNegative tc be then 0xff else 0) = []) :
    asn1IntegerContent p size le tc s = .error .oobRead := by
  unfold asn1IntegerContent
  simp only
  generalize hinc : (if le then (-1 : Int) else 1) = inc at *
  generalize hend : (if le then (-1 : Int) else (size.toNat : Int)) = end_ at *
  have h1 := integerNegative_ok p tc inc end_ be h hne
  rw [hlen] at h1
  have h2 := stripLoop_ub p _ inc end_ be h hadj hall
  rw [hlen] at h2
  rw [h1, liftM_ok_bind, h2]; rfl

/-! ## The value -/

theorem complement_involutive (l : Bytes) : (l.map (fun b => 255 - b)).map (fun b => 255 - b) = l := by
  rw [List.map_map]
  conv => rhs; rw [← List.map_id l]
  apply List.map_congr_left
  intro b _
  simp only [Function.comp, id]
  have : ∀ i : Fin 256, (255 : UInt8) - (255 - UInt8.ofNat i.val) = UInt8.ofNat i.val := by decide +kernel
  have h := this ⟨b.toNat, b.toNat_lt⟩
  simpa using h

theorem complement_toNat (b : UInt8) : (255 - b).toNat = 255 - b.toNat := by
  rw [UInt8.toNat_sub_of_le]
  · rfl
  · rw [UInt8.le_iff_toNat_le]; have := b.toNat_lt; have e : (255 : UInt8).toNat = 255 := rfl; omega

theorem fromBE_complement (l : Bytes) : fromBE (l.map (fun b => 255 - b)) + fromBE l + 1 = 256 ^ l.length := by
  induction l using rev_ind with
  | nil => simp [fromBE]
  | snoc l b ih =>
    rw [List.map_append, List.map_singleton, fromBE_append, fromBE_append, complement_toNat, List.length_append,
      List.length_singleton, Nat.pow_succ, ← ih]
    have := b.toNat_lt
    omega

theorem dropWhile_complement (l : Bytes) :
    (l.map (fun b => 255 - b)).dropWhile (fun b => b == 0) = (l.dropWhile (fun b => b == 0xff)).map (fun b => 255 - b) := by
  induction l with
  | nil => rfl
  | cons b t ih =>
    rw [List.map_cons, List.dropWhile_cons, List.dropWhile_cons]
    have e : ((255 - b : UInt8) == 0) = (b == 0xff) := by
      have : ∀ i : Fin 256, ((255 : UInt8) - UInt8.ofNat i.val == 0) = (UInt8.ofNat i.val == 0xff) := by decide +kernel
      have h := this ⟨b.toNat, b.toNat_lt⟩
      simpa using h
    rw [e]
    split
    · exact ih
    · simp

theorem strippedContent_nonneg (be : Bytes) : strippedContent false be = intContent (fromBE be) := by
  show _ = natContent (fromBE be)
  unfold strippedContent natContent
  rw [beBytes_fromBE]
  simp only [Bool.false_eq_true, if_false]
  cases be.dropWhile (fun b => b == 0) with
  | nil => rfl
  | cons b r =>
    simp only
    by_cases h : b.toNat < 128
    · rw [if_pos h, if_neg (by omega)]
    · rw [if_neg h, if_pos (by omega)]

theorem twosComplement_lo (b : UInt8) (t : Bytes) (h : b.toNat < 128) :
    twosComplement (b :: t) = (fromBE (b :: t) : Int) := by
  simp only [twosComplement, if_pos h]

theorem twosComplement_hi (b : UInt8) (t : Bytes) (h : 128 ≤ b.toNat) :
    twosComplement (b :: t) = Int.negSucc (fromBE ((b :: t).map (fun b => 255 - b))) := by
  have hc := fromBE_complement (b :: t)
  simp only [twosComplement, if_neg (show ¬ b.toNat < 128 by omega)]
  rw [← hc, Int.negSucc_eq]
  omega

theorem strippedContent_neg (b : UInt8) (t : Bytes) (h : 128 ≤ b.toNat) :
    strippedContent true (b :: t) = intContent (twosComplement (b :: t)) := by
  rw [twosComplement_hi b t h]
  show _ = (natContent _).map _
  unfold strippedContent natContent
  rw [beBytes_fromBE, dropWhile_complement]
  simp only [if_true]
  cases (b :: t).dropWhile (fun b => b == 0xff) with
  | nil => decide
  | cons c r =>
    simp only [List.map_cons]
    have hcn := complement_toNat c
    have := c.toNat_lt
    have hinv := complement_involutive (c :: r)
    simp only [List.map_cons] at hinv
    by_cases hlt : c.toNat < 128
    · rw [if_pos hlt, if_neg (by omega)]
      simp only [List.map_cons, hinv]
      rfl
    · rw [if_neg hlt, if_pos (by omega)]
      simp only [List.map_cons, hinv]

theorem strippedContent_eq (tc : Bool) (be : Bytes) :
    strippedContent (isNegative tc be) be = intContent (bytesValue tc be) := by
  cases tc with
  | false => exact strippedContent_nonneg be
  | true =>
    cases be with
    | nil =>
      show [(0 : UInt8)] = natContent 0
      rw [natContent, beBytes_zero]
    | cons b t =>
      by_cases h : 128 ≤ b.toNat
      · have e : isNegative true (b :: t) = true := by simp [isNegative, h]
        rw [e, strippedContent_neg b t h]; rfl
      · have e : isNegative true (b :: t) = false := by simp [isNegative, h]
        rw [e, strippedContent_nonneg]
        simp only [bytesValue, if_true, twosComplement, if_pos (show b.toNat < 128 by omega)]

/-! ## Spec level: contents octets are minimal, unique and denote the value -/

theorem natContent_minimal (n : Nat) : MinimalInteger (natContent n) ∧ twosComplement (natContent n) = n ∧
    ∃ b r, natContent n = b :: r ∧ b.toNat < 128 := by
  unfold natContent
  have hv := fromBE_beBytes n
  by_cases h0 : n = 0
  · subst h0; rw [beBytes_zero]; exact ⟨trivial, by decide, 0, [], rfl, by decide⟩
  · have hhead := beBytes_head n [] h0
    rw [List.append_nil] at hhead
    cases hb : beBytes n with
    | nil => exact absurd hb (beBytes_ne_nil h0)
    | cons b r =>
      rw [hb] at hv hhead
      simp only
      have hb0 : b.toNat ≠ 0 := by
        intro h; apply hhead; simp only [List.head?_cons, Option.some.injEq]
        apply UInt8.toNat_inj.1; rw [h]; rfl
      by_cases h : b.toNat < 128
      · rw [if_pos h]
        refine ⟨?_, ?_, b, r, rfl, h⟩
        · cases r with
          | nil => trivial
          | cons c r => exact ⟨by omega, by omega⟩
        · simp only [twosComplement, if_pos h, hv]
      · rw [if_neg h]
        refine ⟨⟨?_, ?_⟩, ?_, 0, b :: r, rfl, by decide⟩
        · omega
        · intro hh; exact absurd hh.1 (by decide)
        · simp only [twosComplement]
          rw [if_pos (by decide)]
          have : fromBE (0 :: b :: r) = fromBE (b :: r) := by
            simp [fromBE]
          rw [this, hv]

theorem minimal_complement (c : Bytes) : MinimalInteger (c.map (fun b => 255 - b)) ↔ MinimalInteger c := by
  cases c with
  | nil => rfl
  | cons a t =>
    cases t with
    | nil => rfl
    | cons b r =>
      simp only [List.map_cons, MinimalInteger]
      rw [complement_toNat, complement_toNat]
      have := a.toNat_lt
      have := b.toNat_lt
      constructor
      · rintro ⟨h1, h2⟩; exact ⟨by omega, by omega⟩
      · rintro ⟨h1, h2⟩; exact ⟨by omega, by omega⟩

theorem twosComplement_complement (b : UInt8) (r : Bytes) :
    twosComplement ((b :: r).map (fun b => 255 - b)) = -1 - twosComplement (b :: r) := by
  have hb := b.toNat_lt
  have hbc := complement_toNat b
  by_cases h : b.toNat < 128
  · have h1 := twosComplement_hi (255 - b) (r.map (fun b => 255 - b)) (by omega)
    rw [← List.map_cons, complement_involutive] at h1
    rw [twosComplement_lo b r h, h1, Int.negSucc_eq]; omega
  · have h1 := twosComplement_lo (255 - b) (r.map (fun b => 255 - b)) (by omega)
    rw [twosComplement_hi b r (by omega), List.map_cons, h1, Int.negSucc_eq]; omega

/-- DER contents octets of an integer are minimal and denote it. -/
theorem intContent_spec (v : Int) : MinimalInteger (intContent v) ∧ twosComplement (intContent v) = v := by
  cases v with
  | ofNat n => exact ⟨(natContent_minimal n).1, (natContent_minimal n).2.1⟩
  | negSucc n =>
    obtain ⟨h1, h2, b, r, hbr, _⟩ := natContent_minimal n
    refine ⟨(minimal_complement _).2 h1, ?_⟩
    show twosComplement ((natContent n).map _) = _
    rw [hbr] at h2 ⊢
    rw [twosComplement_complement, h2, Int.negSucc_eq]; omega

theorem natContent_unique (c : Bytes) (b : UInt8) (r : Bytes) (hc : c = b :: r) (hb : b.toNat < 128)
    (hm : MinimalInteger c) : natContent (fromBE c) = c := by
  subst hc
  unfold natContent
  rw [beBytes_fromBE, List.dropWhile_cons]
  by_cases h0 : b = 0
  · subst h0
    simp only [beq_self_eq_true, if_true]
    cases r with
    | nil => rfl
    | cons d r =>
      have hd : ¬ d.toNat < 128 := fun h => hm.1 ⟨rfl, h⟩
      have : d ≠ 0 := by intro h; subst h; exact hd (by decide)
      rw [List.dropWhile_cons, if_neg (by simpa using this)]
      simp only [if_neg hd]
  · rw [if_neg (by simpa using h0)]
    simp only [if_pos hb]

/-- The minimal contents octets denoting a value are unique. -/
theorem intContent_unique (c : Bytes) (hm : MinimalInteger c) : intContent (twosComplement c) = c := by
  cases hc : c with
  | nil => subst hc; exact absurd hm (by simp [MinimalInteger])
  | cons b r =>
    by_cases hb : b.toNat < 128
    · have := natContent_unique c b r hc hb hm
      subst hc
      have e : twosComplement (b :: r) = Int.ofNat (fromBE (b :: r)) := by
        simp only [twosComplement, if_pos hb]; rfl
      rw [e]
      exact this
    · have hbc := complement_toNat b
      have hbl := b.toNat_lt
      have hmc : MinimalInteger (c.map (fun b => 255 - b)) := (minimal_complement c).2 hm
      subst hc
      have := natContent_unique _ (255 - b) (r.map (fun b => 255 - b)) rfl (by omega) hmc
      rw [twosComplement_hi b r (by omega)]
      show (natContent _).map _ = _
      rw [List.map_cons, this, ← List.map_cons, complement_involutive]

/-! ## Machine integers -/

theorem leBytes64_getElem (n : UInt64) (i : Nat) (hi : i < 8) :
    (leBytes64 n)[i]? = some (UInt8.ofNat (n.toNat / 256 ^ i % 256)) := by
  unfold leBytes64
  rw [List.getElem?_map, List.getElem?_range hi]
  simp only [Option.map_some, Option.some.injEq]
  apply u8_eq_of_toNat
  rw [UInt64.toNat_toUInt8, UInt64.toNat_shiftRight]
  have : (8 * UInt64.ofNat i).toNat % 64 = 8 * i := by
    rw [UInt64.toNat_mul, UInt64.toNat_ofNat_of_lt' (by simp [UInt64.size]; omega)]
    have e : (8 : UInt64).toNat = 8 := rfl
    rw [e]; omega
  rw [this, Nat.shiftRight_eq_div_pow, Nat.pow_mul]

theorem leDigits_value (n k : Nat) :
    fromBE (((List.range k).map fun i => UInt8.ofNat (n / 256 ^ i % 256)).reverse) = n % 256 ^ k := by
  induction k generalizing n with
  | zero => simp [fromBE, Nat.mod_one]
  | succ k ih =>
    rw [List.range_succ_eq_map, List.map_cons, List.reverse_cons, fromBE_append, List.map_map]
    have e : (fun i => UInt8.ofNat (n / 256 ^ i % 256)) ∘ Nat.succ = fun i => UInt8.ofNat (n / 256 / 256 ^ i % 256) := by
      funext i
      simp only [Function.comp, Nat.pow_succ', Nat.div_div_eq_div_mul]
    rw [e, ih, Nat.pow_zero, Nat.div_one, u8_ofNat_toNat _ (by omega), Nat.pow_succ', Nat.mod_mul]
    omega

theorem leBytes64_digits (n : UInt64) : leBytes64 n = (List.range 8).map fun i => UInt8.ofNat (n.toNat / 256 ^ i % 256) := by
  apply List.ext_getElem?
  intro i
  rcases Nat.lt_or_ge i 8 with h | h
  · rw [leBytes64_getElem n i h, List.getElem?_map, List.getElem?_range h]; rfl
  · rw [List.getElem?_eq_none (by simp [leBytes64]; omega), List.getElem?_eq_none (by simp; omega)]

theorem leBytes64_value (n : UInt64) : fromBE (leBytes64 n).reverse = n.toNat := by
  have hn := n.toNat_lt
  rw [leBytes64_digits, leDigits_value]
  exact Nat.mod_eq_of_lt hn

theorem leBytes64_signed (n : Int64) : twosComplement (leBytes64 n.toUInt64).reverse = n.toInt := by
  have hv := leBytes64_value n.toUInt64
  have hn := n.toUInt64.toNat_lt
  have htop : (leBytes64 n.toUInt64).reverse = UInt8.ofNat (n.toUInt64.toNat / 256 ^ 7 % 256) ::
      ((leBytes64 n.toUInt64).take 7).reverse := by
    rw [leBytes64_digits, List.range_succ, List.map_append, List.reverse_append,
      List.take_left' (by simp)]
    rfl
  have hl : (leBytes64 n.toUInt64).reverse.length = 8 := by simp [leBytes64]
  have hb : (UInt8.ofNat (n.toUInt64.toNat / 256 ^ 7 % 256)).toNat = n.toUInt64.toNat / 2 ^ 56 := by
    rw [u8_ofNat_toNat _ (by omega)]; omega
  have hto : n.toInt = if n.toUInt64.toNat < 2 ^ 63 then (n.toUInt64.toNat : Int) else n.toUInt64.toNat - 2 ^ 64 := by
    have e : n.toInt = n.toBitVec.toInt := rfl
    have e2 : n.toUInt64.toNat = n.toBitVec.toNat := rfl
    rw [e, e2, BitVec.toInt_eq_toNat_cond]
    by_cases h : n.toBitVec.toNat < 2 ^ 63
    · rw [if_pos h, if_pos (by omega)]
    · rw [if_neg h, if_neg (by omega)]; norm_cast
  rw [hto]
  rw [htop] at hv hl ⊢
  generalize UInt8.ofNat (n.toUInt64.toNat / 256 ^ 7 % 256) = b at *
  simp only [twosComplement]
  rw [hv, hl]
  by_cases h : n.toUInt64.toNat < 2 ^ 63
  · rw [if_pos h, if_pos (by omega)]
  · rw [if_neg h, if_neg (by omega)]; rfl

end Nat20

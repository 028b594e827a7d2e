import Verif.Lemmas.Cost
/-!
# Lemmas: how many steps rendering functions make
-/

namespace Nat20

/-- The statement makes at most `n` steps, and `Q` holds for its result. -/
def Costs {α : Type} (n : Nat) (Q : α → Prop) (w : WP α) : Prop := ∀ s c, n ≤ c → (w s).Ends (fun x k => c ≤ k + n ∧ Q x.1) c

abbrev CostsAny {α : Type} (n : Nat) (w : WP α) : Prop := Costs n (fun _ => True) w

section
variable {α β : Type} {n m : Nat} {Q : α → Prop} {R : β → Prop}

theorem Costs.seq {w : WP α} {f : α → WP β} (h : Costs n Q w) (hf : ∀ x, Q x → Costs m R (f x)) : Costs (n + m) R (w >>= f) := fun s c hc =>
  Prog.Ends.seq (h s c (by omega)) fun x k hx => (hf x.1 hx.2 x.2 k (by omega)).post fun y k' hy => ⟨by omega, hy.2⟩

theorem Costs.mono {w : WP α} {Q' : α → Prop} (h : Costs n Q w) (hn : n ≤ m) (hQ : ∀ x, Q x → Q' x) : Costs m Q' w := fun s c hc =>
  (h s c (by omega)).post fun _ k hx => ⟨by omega, hQ _ hx.2⟩

theorem Costs.le {w : WP α} (h : Costs n Q w) (hn : n ≤ m) : Costs m Q w := h.mono hn fun _ h => h

theorem costs_pure (x : α) (h : Q x) : Costs n Q (Pure.pure x : WP α) := fun _ c _ => .done c _ ⟨by omega, h⟩

theorem costs_lift {p : Prog α} (h : ∀ c, n ≤ c → p.Ends (fun x k => c ≤ k + n ∧ Q x) c) : Costs n Q (liftP p) := fun _ c hc =>
  (h c hc).seq fun _ k hx => .done k _ hx

theorem costs_pureP {e : Except UB α} (h : e ≠ .error .diverges) : Costs 0 (fun x => e = .ok x) (liftP (pureP e)) := by
  refine costs_lift fun c _ => ?_
  cases e with
  | ok x => exact .done _ _ ⟨by omega, rfl⟩
  | error u => exact .crash _ _ fun hu => h (by rw [hu])

theorem costs_byteCount : CostsAny 0 byteCountP := fun _ c _ => .done c _ ⟨by omega, trivial⟩

end

theorem ends_readP (p : Source) (i : Int) (c : Nat) (hc : 1 ≤ c) : (p.readP i).Ends (fun _ k => c ≤ k + 1) c := by
  unfold Source.readP
  split
  · split
    · exact ends_load hc fun _ => .done _ _ (by omega)
    · exact .crash _ _ (by decide)
  · next q =>
    unfold Ptr.read
    repeat' split
    all_goals first | exact .done _ _ (by omega) | exact .crash _ _ (by decide)

theorem costs_readP (p : Source) (i : Int) : CostsAny 1 (liftP (p.readP i)) := costs_lift fun c hc => (ends_readP p i c hc).post fun _ _ h => ⟨h, trivial⟩

theorem ends_put (bs : Bytes) : ∀ (dst : Addr) (c : Nat), bs.length ≤ c → (putP dst bs).Ends (fun _ k => c ≤ k + bs.length) c := by
  induction bs with
  | nil => intro dst c _; exact .done _ _ (by simp)
  | cons b l ih =>
    intro dst c h
    rw [List.length_cons] at *
    exact ends_store (by omega) ((ih _ _ (by omega)).post fun _ k hk => by omega)

theorem ends_memcpy (dst : Addr) (src : Source) (len : Nat) (c : Nat) (hc : 2 * len ≤ c) : (memcpyP dst src len).Ends (fun _ k => c ≤ k + 2 * len) c := by
  unfold memcpyP
  split
  · split
    · exact .crash _ _ (by decide)
    · exact ends_copy _ _ _ 0 c hc
  · split
    · exact .crash _ _ (by decide)
    · next p h =>
      have hl : (p.data.take len).length ≤ len := List.length_take_le _ _
      exact (ends_put _ dst c (by omega)).post fun _ k hk => by omega

theorem costs_prepend (src : Option Source) (len : UInt64) : CostsAny (2 * len.toNat) (streamPrependP src len) := by
  intro sp c hc
  unfold streamPrependP
  split
  · exact .done _ _ ⟨by omega, trivial⟩
  dsimp only
  split
  · exact .done _ _ ⟨by omega, trivial⟩
  split
  · exact (ends_memcpy _ _ _ c hc).seq fun _ k hk => .done _ _ ⟨hk, trivial⟩
  · exact .crash _ _ (by decide)

theorem costs_local (bs : Bytes) : CostsAny bs.length (prependLocalP bs) := by
  intro sp c hc
  unfold prependLocalP streamPrependP
  split
  · exact .done _ _ ⟨by omega, trivial⟩
  dsimp only
  split
  · exact .done _ _ ⟨by omega, trivial⟩
  split
  · next d src _ hsrc =>
    cases hsrc
    refine Prog.Ends.seq (Q := fun _ k => c ≤ k + bs.length) ?_ fun _ k hk => .done _ _ ⟨hk, trivial⟩
    unfold memcpyP
    dsimp only
    split
    · exact .crash _ _ (by decide)
    · have hl : (bs.take (UInt64.ofNat bs.length).toNat).length ≤ bs.length := List.length_take_le' _ _
      exact (ends_put _ _ c (by omega)).post fun _ k hk => by omega
  · exact .crash _ _ (by decide)

theorem costs_octet (b : UInt8) : CostsAny 1 (prependLocalP [b]) := costs_local [b]

/-! ## asn1.c -/

theorem costs_base128Loop (k : Nat) : ∀ (n : UInt64) (t : UInt8), n.toNat < 128 ^ (k + 1) → CostsAny (k + 1) (base128LoopP n t) := by
  induction k with
  | zero =>
    intro n t h
    rw [base128LoopP]
    refine ((costs_octet t).seq fun _ _ => ?_ : CostsAny (1 + 0) _)
    have h0 : n >>> 7 = 0 := by
      apply UInt64.toNat_inj.1
      rw [UInt64.toNat_shiftRight]
      simp [Nat.shiftRight_eq_div_pow]
      omega
    dsimp only
    rw [if_neg (by simp [h0])]
    exact costs_pure _ trivial
  | succ k ih =>
    intro n t h
    rw [base128LoopP]
    refine Costs.le ((costs_octet t).seq fun _ _ => ?_ : CostsAny (1 + (k + 1)) _) (by omega)
    dsimp only
    split
    · refine ih _ _ ?_
      rw [UInt64.toNat_shiftRight]
      simp only [UInt64.reduceToNat, Nat.reduceMod, Nat.shiftRight_eq_div_pow, Nat.reducePow]
      rw [Nat.pow_succ] at h
      exact Nat.div_lt_of_lt_mul (by omega)
    · exact costs_pure _ trivial

theorem costs_base128 (n : UInt64) : CostsAny 10 (asn1Base128IntP n) := costs_base128Loop 9 n _ (by have := n.toNat_lt; omega)

theorem costs_base128_32 (n : UInt32) : CostsAny 5 (asn1Base128IntP n.toUInt64) := costs_base128Loop 4 _ _ (by have := n.toNat_lt; simp; omega)

theorem costs_lengthLoop (k : Nat) : ∀ (n : UInt64) (t : UInt8) (b : UInt64), n.toNat < 256 ^ (k + 1) → CostsAny (k + 1) (lengthLoopP n t b) := by
  induction k with
  | zero =>
    intro n t b h
    rw [lengthLoopP]
    refine ((costs_octet t).seq fun _ _ => ?_ : CostsAny (1 + 0) _)
    have h0 : n >>> 8 = 0 := by
      apply UInt64.toNat_inj.1
      rw [UInt64.toNat_shiftRight]
      simp [Nat.shiftRight_eq_div_pow]
      omega
    dsimp only
    rw [if_neg (by simp [h0])]
    exact costs_pure _ trivial
  | succ k ih =>
    intro n t b h
    rw [lengthLoopP]
    refine Costs.le ((costs_octet t).seq fun _ _ => ?_ : CostsAny (1 + (k + 1)) _) (by omega)
    dsimp only
    split
    · refine ih _ _ _ ?_
      rw [UInt64.toNat_shiftRight]
      simp only [UInt64.reduceToNat, Nat.reduceMod, Nat.shiftRight_eq_div_pow, Nat.reducePow]
      rw [Nat.pow_succ] at h
      exact Nat.div_lt_of_lt_mul (by omega)
    · exact costs_pure _ trivial

theorem costs_headerLength (len : UInt64) : CostsAny 9 (headerLengthP len) := by
  unfold headerLengthP
  split
  · exact (costs_octet _).le (by omega)
  · exact ((costs_lengthLoop 7 len _ 0 (by have := len.toNat_lt; omega)).seq fun _ _ => costs_octet _ : CostsAny (8 + 1) _)

theorem costs_headerTag (tag : UInt32) : CostsAny 5 (headerTagP tag) := by
  unfold headerTagP
  split
  · exact ((costs_base128_32 tag).seq fun _ _ => costs_pure _ trivial : CostsAny (5 + 0) _)
  · exact costs_pure _ trivial

theorem costs_header (class_ : UInt8) (constructed : Bool) (tag : UInt32) (len : UInt64) : CostsAny 15 (asn1HeaderP class_ constructed tag len) :=
  ((costs_headerLength len).seq fun _ _ => (costs_headerTag tag).seq fun _ _ => costs_octet _ : CostsAny (9 + (5 + 1)) _)

theorem costs_explicit (ti : TagInfo) (mark : UInt64) : CostsAny 15 (explicitHeaderP ti mark) := by
  unfold explicitHeaderP
  split
  · exact (costs_byteCount.seq fun _ _ => costs_header _ _ _ _ : CostsAny (0 + 15) _)
  · exact costs_pure _ trivial

theorem costs_null (ti : TagInfo) : CostsAny 30 (asn1NullP ti) :=
  (costs_byteCount.seq fun _ _ => (costs_header _ _ _ _).seq fun _ _ => costs_explicit ti _ : CostsAny (0 + (15 + 15)) _)

theorem costs_content {n : Nat} {cb : Option (WP Unit)} (h : ∀ w, cb = some w → CostsAny n w) : CostsAny n (callContentP cb) := by
  cases cb with
  | none => exact costs_pure _ trivial
  | some w => exact h w rfl

theorem costs_withContent {n : Nat} (class_ : UInt8) (constructed : Bool) (tag : UInt32) {cb : Option (WP Unit)} (ti : TagInfo) (h : ∀ w, cb = some w → CostsAny n w) :
    CostsAny (n + 30) (asn1HeaderWithContentP class_ constructed tag cb ti) :=
  Costs.le (costs_byteCount.seq fun _ _ => (costs_content h).seq fun _ _ => costs_byteCount.seq fun _ _ => (costs_header _ _ _ _).seq fun _ _ => costs_explicit ti _ :
    CostsAny (0 + (n + (0 + (15 + 15)))) _) (by omega)

theorem costs_some {n : Nat} (class_ : UInt8) (constructed : Bool) (tag : UInt32) {w : WP Unit} (ti : TagInfo) (h : CostsAny n w) :
    CostsAny (n + 30) (asn1HeaderWithContentP class_ constructed tag (some w) ti) := costs_withContent class_ constructed tag ti fun _ hw => by cases hw; exact h

theorem costs_sequence {n : Nat} {w : WP Unit} (ti : TagInfo) (h : CostsAny n w) : CostsAny (n + 30) (asn1SequenceP (some w) ti) := costs_some _ _ _ ti h

theorem element_runs (oid : Oid) (i : Nat) : oid.element i ≠ .error .diverges := by
  unfold Oid.element
  split <;> simp

theorem costs_oidLoop (oid : Oid) (e : Nat) : CostsAny (5 * (e - 2)) (oidLoopP oid e) := by
  induction e with
  | zero => exact costs_pure _ trivial
  | succ e ih =>
    rw [oidLoopP]
    split
    · exact Costs.le ((costs_pureP (element_runs oid e)).seq fun _ _ => (costs_base128_32 _).seq fun _ _ => ih : CostsAny (0 + (5 + 5 * (e - 2))) _) (by omega)
    · exact costs_pure _ trivial

theorem element_bind_runs {α : Type} (oid : Oid) (i : Nat) (f : UInt32 → Except UB α) (h : ∀ x, f x ≠ .error .diverges) : (oid.element i >>= f) ≠ .error .diverges := by
  unfold Oid.element
  split
  · exact h _
  · intro h; cases h

theorem firstByte_runs (oid : Oid) (e : Nat) : oidFirstByte oid e ≠ .error .diverges := by
  have h2 : ∀ h : UInt8, (if e > 0 then (do
      let x ← oid.element 0
      Pure.pure (h.toUInt32 + x * 40).toUInt8) else (Pure.pure h : Except UB UInt8)) ≠ .error .diverges := by
    intro h
    split
    · exact element_bind_runs _ _ _ fun x hx => by cases hx
    · intro h; cases h
  unfold oidFirstByte Oid.element
  by_cases he : e = 2
  · rw [if_pos he]
    cases oid.elements[1]? with
    | none => intro h; cases h
    | some x => exact h2 x.toUInt8
  · rw [if_neg he]
    exact h2 0

theorem costs_oid (oid : Option Oid) (ti : TagInfo) : CostsAny 71 (asn1ObjectIdentifierP oid ti) := by
  unfold asn1ObjectIdentifierP
  split
  · exact (costs_null _).le (by omega)
  next oid =>
  split
  · exact (costs_null _).le (by omega)
  next h =>
  refine (costs_some _ _ _ ti ?_ : CostsAny (41 + 30) _)
  have hc : oid.elemCount.toNat ≤ 10 := by
    have : ¬ (10 : UInt32) < oid.elemCount := h
    rw [UInt32.lt_iff_toNat_lt] at this
    simpa using this
  exact Costs.le ((costs_oidLoop oid _).seq fun e _ => (costs_pureP (firstByte_runs oid e)).seq fun _ _ => costs_octet _ : CostsAny (5 * (oid.elemCount.toNat - 2) + (0 + 1)) _) (by omega)

theorem ends_strip (p : Source) (pad : UInt8) (inc end_ : Int) (n : Nat) : ∀ c, n + 1 ≤ c → (stripLoopP p pad inc end_ n).Ends (fun r k => c ≤ k + (n + 1) ∧ r ≤ n) c := by
  induction n with
  | zero => intro c hc; exact (ends_readP p _ c (by omega)).seq fun _ k hk => .done _ _ ⟨by omega, Nat.le_refl _⟩
  | succ n ih =>
    intro c hc
    refine (ends_readP p _ c (by omega)).seq fun b k hk => ?_
    split
    · exact (ih k (by omega)).post fun r k' hr => ⟨by omega, by omega⟩
    · exact .done _ _ ⟨by omega, Nat.le_refl _⟩

theorem costs_writeLoop (p : Source) (inc : Int) (n : Nat) : ∀ end_ : Int, CostsAny (2 * n) (writeLoopP p inc end_ n) := by
  induction n with
  | zero => intro e; exact costs_pure _ trivial
  | succ n ih => intro e; exact Costs.le ((costs_readP p _).seq fun _ _ => (costs_octet _).seq fun _ _ => ih _ : CostsAny (1 + (1 + 2 * n)) _) (by omega)

theorem costs_negative (p : Source) (t : Bool) (msb : Int) : CostsAny 1 (liftP (integerNegativeP p t msb)) := by
  refine costs_lift fun c hc => ?_
  unfold integerNegativeP
  split
  · exact (ends_readP p _ c hc).seq fun _ k hk => .done _ _ ⟨hk, trivial⟩
  · exact .done _ _ ⟨by omega, trivial⟩

theorem costs_addExtra (p : Source) (n : Bool) (rem : Nat) (msb : Int) : CostsAny 1 (liftP (integerAddExtraP p n rem msb)) := by
  refine costs_lift fun c hc => ?_
  unfold integerAddExtraP
  split
  · exact .done _ _ ⟨by omega, trivial⟩
  · exact (ends_readP p _ c hc).seq fun _ k hk => .done _ _ ⟨hk, trivial⟩

theorem costs_integerContent (p : Source) (size : UInt64) (le tc : Bool) : CostsAny (3 * size.toNat + 4) (asn1IntegerContentP p size le tc) := by
  refine Costs.le ((costs_negative _ _ _).seq fun neg _ => (costs_lift (n := size.toNat + 1) (Q := fun r => r ≤ size.toNat) fun c hc => ends_strip _ _ _ _ _ c hc).seq fun rem hrem =>
    (costs_addExtra _ _ _ _).seq fun _ _ => ((costs_writeLoop _ _ rem _).le (m := 2 * size.toNat) (by omega)).seq fun _ _ => ?_ :
    CostsAny (1 + ((size.toNat + 1) + (1 + (2 * size.toNat + 1)))) _) (by omega)
  split
  · exact costs_octet _
  · exact costs_pure _ trivial

theorem costs_integer (n : RSlice) (le tc : Bool) (ti : TagInfo) : CostsAny (3 * n.size.toNat + 34) (asn1IntegerP n le tc ti) := by
  unfold asn1IntegerP
  split
  · exact (costs_null _).le (by omega)
  · exact Costs.le (costs_some _ _ _ ti (costs_integerContent _ _ _ _)) (by omega)

theorem costs_uint64 (fr : Frame) (n : UInt64) (ti : TagInfo) : CostsAny 58 (asn1UInt64P fr n ti) :=
  costs_integer ⟨8, some (.const ⟨fr.below, fr.objectBytes n ++ fr.above⟩)⟩ (!fr.bigEndian) false ti

theorem costs_int64 (fr : Frame) (n : Int64) (ti : TagInfo) : CostsAny 58 (asn1Int64P fr n ti) :=
  costs_integer ⟨8, some (.const ⟨fr.below, fr.objectBytes n.toUInt64 ++ fr.above⟩)⟩ (!fr.bigEndian) true ti

theorem costs_bitstringLoop (p : Source) (n : Nat) : CostsAny (2 * n) (bitstringLoopP p n) := by
  induction n with
  | zero => exact costs_pure _ trivial
  | succ n ih => exact Costs.le ((costs_readP p _).seq fun _ _ => (costs_octet _).seq fun _ _ => ih : CostsAny (1 + (1 + 2 * n)) _) (by omega)

theorem costs_bitstringBytes (b : Option Source) (bytes : UInt64) (unused : UInt8) : CostsAny (2 * bytes.toNat) (bitstringBytesP b bytes unused) := by
  unfold bitstringBytesP
  split
  · exact costs_pure _ trivial
  next h =>
  split
  · exact ((costs_pureP (e := .error .nullDeref) (by intro h; cases h)).mono (by omega) fun _ _ => trivial)
  · have hb : bytes.toNat ≠ 0 := fun h0 => h (UInt64.toNat.inj h0)
    have h1 : (bytes - 1).toNat = bytes.toNat - 1 := UInt64.toNat_sub_of_le _ _ (by rw [UInt64.le_iff_toNat_le]; simp; omega)
    exact Costs.le ((costs_readP _ _).seq fun _ _ => (costs_octet _).seq fun _ _ => costs_bitstringLoop _ _ : CostsAny (1 + (1 + 2 * (bytes - 1).toNat)) _) (by omega)

theorem costs_bitstring (b : Option Source) (bits : UInt64) (ti : TagInfo) : CostsAny (2 * bitOctets bits + 31) (asn1BitstringP b bits ti) := by
  refine Costs.le (costs_some _ _ _ ti (Costs.le ((costs_bitstringBytes b _ _).seq fun _ _ => costs_octet _) (?_ : _ ≤ 2 * bitOctets bits + 1))) (by omega)
  have h : ∀ x : UInt64, ((x + 7) >>> 3).toNat ≤ bitOctets x := by
    intro x
    rw [UInt64.toNat_shiftRight, UInt64.toNat_add]
    simp only [UInt64.reduceToNat, Nat.reduceMod, Nat.shiftRight_eq_div_pow, Nat.reducePow, bitOctets]
    omega
  split
  · have : ((0 + 7 : UInt64) >>> 3).toNat = 0 := by decide
    omega
  · have := h bits
    omega

theorem costs_stringishContent (s : Option RSlice) : CostsAny (2 * s.elim 0 (·.size.toNat)) (asn1StringishContentP s) := by
  unfold asn1StringishContentP
  split
  · exact costs_pure _ trivial
  split
  · exact costs_pure _ trivial
  · exact costs_prepend _ _

theorem costs_stringish (tag : UInt32) (s : Option RSlice) (ti : TagInfo) : CostsAny (2 * s.elim 0 (·.size.toNat) + 30) (asn1StringishP tag s ti) :=
  costs_some _ _ _ ti (costs_stringishContent s)

theorem costs_slice (tag : UInt32) (s : RSlice) (ti : TagInfo) : CostsAny (2 * s.size.toNat + 30) (asn1StringishP tag (some s) ti) := costs_stringish tag (some s) ti

theorem costs_stringGetD (tag : UInt32) (s : Option RSlice) (ti : TagInfo) : CostsAny (2 * s.elim 0 (·.size.toNat) + 30) (asn1StringishP tag (some (s.getD RSlice.null)) ti) := by
  cases s with
  | none => exact costs_slice tag RSlice.null ti
  | some s => exact costs_slice tag s ti

theorem costs_time (s : Option RSlice) (ti : TagInfo) : CostsAny (2 * s.elim 0 (·.size.toNat) + 30) (asn1GeneralizedTimeP s ti) := by
  cases s with
  | none => exact (costs_null _).le (by omega)
  | some s => exact costs_slice _ s ti

theorem costs_boolean (v : Bool) (ti : TagInfo) : CostsAny 31 (asn1BooleanP v ti) := costs_some _ _ _ ti (costs_octet _)

/-! ## cbor.c -/

theorem costs_cborValue (n : UInt64) (k : Nat) : ∀ i, CostsAny k (cborValueLoopP n i k) := by
  induction k with
  | zero => intro i; exact costs_pure _ trivial
  | succ k ih => intro i; exact Costs.le ((costs_octet _).seq fun _ _ => ih _ : CostsAny (1 + k) _) (by omega)

theorem costs_cborHeader (type : UInt32) (n : UInt64) : CostsAny 9 (cborWriteHeaderP type n) := by
  have h : ∀ n, cborValueSize n ≤ 8 := by
    intro n
    unfold cborValueSize
    repeat' split
    all_goals omega
  exact (((costs_cborValue _ _ 0).le (h _)).seq fun _ _ => costs_octet _ : CostsAny (8 + 1) _)

theorem costs_cborInt (n : Int64) : CostsAny 9 (cborWriteIntP n) := by
  unfold cborWriteIntP
  split
  · exact costs_cborHeader _ _
  · refine Costs.le ((costs_pureP ?_).seq fun _ _ => costs_cborHeader _ _) (by omega)
    unfold negMinusOne
    split
    · intro h; cases h
    · intro h; cases h

theorem costs_cborString (type : UInt32) (s : RSlice) : CostsAny (2 * s.size.toNat + 9) (cborWriteStringP type s) := by
  unfold cborWriteStringP
  split
  · exact (costs_cborHeader _ _).le (by omega)
  · exact (costs_prepend _ _).seq fun _ _ => costs_cborHeader _ _

/-! ## x509.c -/

theorem costs_when {n : Nat} (c : Bool) {w : WP Unit} (h : CostsAny n w) : CostsAny n (whenP c w) := by
  unfold whenP
  split
  · exact h
  · exact costs_pure _ trivial

theorem readElement_runs {α : Type} (l : List α) (i : Nat) : readElement l i ≠ .error .diverges := by
  unfold readElement
  split <;> (intro h; cases h)

theorem costs_readElement_is {α : Type} {l : List α} {i : Nat} {x : α} (h : readElement l i = .ok x) : l[i]? = some x := by
  unfold readElement at h
  split at h
  · next hx => cases h; exact hx
  · cases h

theorem take_sum {α : Type} (f : α → Nat) (l : List α) (k : Nat) (x : α) (h : l[k]? = some x) : ((l.take (k + 1)).map f).sum = ((l.take k).map f).sum + f x := by
  rw [List.take_add_one, h]
  simp

theorem costs_element {α β : Type} {m : Nat} {R : β → Prop} (l : List α) (k : Nat) {g : α → WP β} (h : ∀ x, l[k]? = some x → Costs m R (g x)) :
    Costs m R (liftP (pureP (readElement l k)) >>= g) := Costs.le ((costs_pureP (readElement_runs l k)).seq fun x hx => h x (costs_readElement_is hx)) (by omega)

theorem costs_two (a b : UInt8) : CostsAny 2 (prependLocalP [a, b]) := costs_local [a, b]

theorem costs_serialHex (p : Source) (n : Nat) : CostsAny (3 * n) (serialHexLoopP p n) := by
  induction n with
  | zero => exact costs_pure _ trivial
  | succ n ih =>
    exact Costs.le ((costs_readP p _).seq fun _ _ => costs_element _ _ fun _ _ => costs_element _ _ fun _ _ => (costs_two _ _).seq fun _ _ => ih :
      CostsAny (1 + (2 + 3 * n)) _) (by omega)

theorem costs_rdnValue (r : RRdn) (b : Bool) : CostsAny (3 * r.value.size.toNat + 30) (rdnValueP r b) := by
  unfold rdnValueP
  split
  · refine costs_some _ _ _ _ ?_
    unfold serialHexContentP
    split
    · exact costs_pure _ trivial
    · exact costs_serialHex _ _
  · exact (costs_stringGetD _ _ _).le (by simp only [Option.elim_some]; omega)

theorem oidEqualsLoop_runs (a b : Oid) (n : Nat) : ∀ i, oidEqualsLoop a b i n ≠ .error .diverges := by
  induction n with
  | zero => intro i h; cases h
  | succ n ih =>
    intro i
    refine element_bind_runs _ _ _ fun x => element_bind_runs _ _ _ fun y => ?_
    split
    · intro h; cases h
    · exact ih _

theorem oidEquals_runs (a b : Option Oid) : oidEquals a b ≠ .error .diverges := by
  unfold oidEquals
  split
  · split
    · intro h; cases h
    · exact oidEqualsLoop_runs _ _ _ _
  all_goals (intro h; cases h)

theorem costs_rdn (r : RRdn) : CostsAny (150 + 3 * r.value.size.toNat) (x509RdnP r) := by
  refine Costs.le (costs_byteCount.seq fun _ _ => (costs_sequence _ (?_ : CostsAny (0 + (3 * r.value.size.toNat + 30 + 71)) _)).seq fun _ _ => costs_byteCount.seq fun _ _ => costs_header _ _ _ _)
    (by omega)
  exact (costs_pureP (oidEquals_runs _ _)).seq fun _ _ => (costs_rdnValue r _).seq fun _ _ => costs_oid _ _

theorem costs_nameLoop (l : List RRdn) (k : Nat) : CostsAny ((l.take k).map fun r => 150 + 3 * r.value.size.toNat).sum (nameLoopP l k) := by
  induction k with
  | zero => exact costs_pure _ trivial
  | succ k ih =>
    refine costs_element l k fun x hx => ?_
    rw [take_sum _ _ _ _ hx]
    exact Costs.le ((costs_rdn x).seq fun _ _ => ih) (by omega)

theorem costs_name (n : Option RName) : CostsAny (30 + n.elim 30 RName.budget) (x509NameP n) := by
  refine Costs.le (costs_sequence _ (?_ : CostsAny (n.elim 30 RName.budget) _)) (by omega)
  unfold nameContentP
  split
  · exact costs_null _
  next n =>
  rw [Option.elim_some, RName.budget]
  split
  · exact (costs_null _).le (by omega)
  · exact (costs_nameLoop _ _).le (by omega)

section
variable {κ : Type} {K : κ → Nat} {f : κ → WP Unit} (hf : ∀ c, CostsAny (K c) (f c))
include hf

theorem costs_callback (cb : Option κ) : CostsAny (cb.elim 0 K) (callContentP (cb.map f)) := by
  cases cb with
  | none => exact costs_pure _ trivial
  | some c => exact hf c

theorem costs_extensionItem (e : RExtension κ) : CostsAny (150 + e.contentCb.elim 0 K) (extensionItemP (e.map f)) :=
  Costs.le (costs_byteCount.seq fun _ _ => (costs_callback hf e.contentCb).seq fun _ _ => costs_byteCount.seq fun _ _ => (costs_header _ _ _ _).seq fun _ _ =>
    (costs_when _ (costs_boolean _ _)).seq fun _ _ => (costs_oid _ _).seq fun _ _ => costs_byteCount.seq fun _ _ => costs_header _ _ _ _ :
    CostsAny (0 + (e.contentCb.elim 0 K + (0 + (15 + (31 + (71 + (0 + 15))))))) _) (by omega)

theorem costs_extensionLoop (l : List (RExtension κ)) (k : Nat) : CostsAny ((l.take k).map fun x => 150 + x.contentCb.elim 0 K).sum (extensionLoopP (l.map (RExtension.map f)) k) := by
  induction k with
  | zero => exact costs_pure _ trivial
  | succ k ih =>
    refine costs_element _ k fun x hx => ?_
    rw [List.getElem?_map, Option.map_eq_some_iff] at hx
    obtain ⟨y, hy, rfl⟩ := hx
    rw [take_sum _ _ _ _ hy]
    exact Costs.le ((costs_extensionItem hf y).seq fun _ _ => ih) (by omega)

theorem costs_extension (e : RExtensions κ) : CostsAny (e.budget K) (x509ExtensionP (some (e.map f))) := by
  unfold x509ExtensionP
  dsimp only
  split
  · exact costs_pure _ trivial
  · refine Costs.le (costs_sequence _ (?_ : CostsAny (((e.extensions.getD []).take e.extensionsCount.toNat).map fun x => 150 + x.contentCb.elim 0 K).sum _))
      (by rw [RExtensions.budget]; omega)
    unfold extensionContentP RExtensions.map
    cases e.extensions with
    | none =>
      dsimp only [Option.map_none]
      split
      · exact costs_pure _ trivial
      · exact (costs_pureP (e := .error .nullDeref) (by intro h; cases h)).mono (by omega) fun _ _ => trivial
    | some l => exact costs_extensionLoop hf l _

end

theorem costs_basicConstraints (fr : Frame) (c : Option BasicConstraints) : CostsAny 104 (basicConstraintsContentP fr c) := by
  unfold basicConstraintsContentP
  split
  · exact costs_pure _ trivial
  refine Costs.le (costs_byteCount.seq fun _ _ => (?_ : CostsAny 89 _).seq fun _ _ => costs_byteCount.seq fun _ _ => costs_header _ _ _ _ : CostsAny (0 + (89 + (0 + 15))) _) (by omega)
  unfold basicConstraintsBodyP
  split
  · exact ((costs_when _ (costs_uint64 _ _ _)).seq fun _ _ => costs_boolean _ _ : CostsAny (58 + 31) _)
  · exact costs_pure _ trivial

theorem costs_keyUsage (c : Option KeyUsage) : CostsAny 95 (keyUsageContentP c) := by
  unfold keyUsageContentP
  split
  · exact costs_pure _ trivial
  next ku =>
  refine (costs_bitstring _ _ _).le ?_
  have h : bitOctets (keyUsageBitCount ku).toUInt64 ≤ 32 := by
    have := (keyUsageBitCount ku).toNat_lt
    unfold bitOctets
    simp
    omega
  omega

theorem costs_params (a : AlgorithmIdentifier) : CostsAny 71 (algorithmParamsP a) := by
  unfold algorithmParamsP
  split
  · exact (costs_null _).le (by omega)
  split
  · exact costs_oid _ _
  · exact costs_pure _ trivial

theorem costs_algorithm (a : AlgorithmIdentifier) : CostsAny 172 (x509AlgorithmIdentifierP a) :=
  costs_sequence _ ((costs_params a).seq fun _ _ => costs_oid _ _ : CostsAny (71 + 71) _)

theorem costs_publicKeyInfo (i : RPublicKeyInfo) : CostsAny (2 * bitOctets i.publicKeyBits + 233) (x509PublicKeyInfoP i) :=
  Costs.le (costs_sequence _ ((costs_bitstring _ _ _).seq fun _ _ => costs_algorithm _)) (by omega)

theorem costs_validity (v : RValidity) : CostsAny (2 * v.notBefore.size.toNat + 2 * v.notAfter.size.toNat + 150) (x509ValidityP v) := by
  have h : ∀ (s d : RSlice) (ti : TagInfo), d.size.toNat = 15 → CostsAny (2 * s.size.toNat + 60) (asn1GeneralizedTimeP (some (if s.buffer ≠ none then s else d)) ti) := by
    intro s d ti hd
    refine (costs_time _ ti).le ?_
    simp only [Option.elim_some]
    split <;> omega
  exact Costs.le (costs_sequence _ ((h v.notAfter _ _ (by decide)).seq fun _ _ => h v.notBefore _ _ (by decide))) (by omega)

theorem costs_five (a b c d e : UInt8) : CostsAny 5 (prependLocalP [a, b, c, d, e]) := costs_local [a, b, c, d, e]

theorem costs_serial (fr : Frame) (s : RSlice) : CostsAny (3 * s.size.toNat + 58) (tbsSerialP fr s) := by
  unfold tbsSerialP
  split
  · exact (costs_uint64 _ _ _).le (by omega)
  · exact (costs_integer _ _ _ _).le (by omega)

section
variable {κ : Type} {K : κ → Nat} {f : κ → WP Unit} (hf : ∀ c, CostsAny (K c) (f c))
include hf

theorem costs_tbs (fr : Frame) (t : Option (RTbs κ)) : CostsAny (30 + t.elim 0 (RTbs.budget K)) (x509CertTbsP fr (t.map (RTbs.map f))) := by
  refine Costs.le (costs_sequence _ (?_ : CostsAny (t.elim 0 (RTbs.budget K)) _)) (by omega)
  cases t with
  | none => exact costs_pure _ trivial
  | some t =>
    have hn := fun n => costs_name (some n)
    simp only [Option.elim_some] at hn ⊢
    exact Costs.le ((costs_extension hf t.extensions).seq fun _ _ => (costs_publicKeyInfo t.subjectPublicKeyInfo).seq fun _ _ => (hn t.subjectName).seq fun _ _ =>
      (costs_validity t.validity).seq fun _ _ => (hn t.issuerName).seq fun _ _ => (costs_algorithm t.signatureAlgorithm).seq fun _ _ => (costs_serial fr t.serialNumber).seq fun _ _ =>
      costs_five _ _ _ _ _) (by rw [RTbs.budget]; omega)

theorem costs_cert (fr : Frame) (c : Option (RX509 κ)) : CostsAny (30 + c.elim 0 (RX509.budget K)) (x509CertP fr (c.map (RX509.map f))) := by
  refine Costs.le (costs_sequence _ (?_ : CostsAny (c.elim 0 (RX509.budget K)) _)) (by omega)
  cases c with
  | none => exact costs_pure _ trivial
  | some c =>
    simp only [Option.elim_some]
    exact Costs.le ((costs_bitstring c.signature c.signatureBits _).seq fun _ _ => (costs_algorithm c.signatureAlgorithm).seq fun _ _ => costs_tbs hf fr c.tbs) (by rw [RX509.budget]; omega)

end

/-! ## x509_ext_*.c -/

theorem costs_utf8 (s : RSlice) (ti : TagInfo) : CostsAny (2 * s.size.toNat + 30) (asn1Utf8StringP (some s) ti) := costs_slice _ s ti

theorem costs_octetString (s : RSlice) (ti : TagInfo) : CostsAny (2 * s.size.toNat + 30) (asn1OctetStringP (some s) ti) := costs_slice _ s ti

theorem costs_openDice (fr : Frame) (c : Option ROpenDiceInput) : CostsAny (c.elim 0 ROpenDiceInput.budget) (openDiceInputContentP fr c) := by
  unfold openDiceInputContentP
  split
  · exact costs_pure _ trivial
  next i =>
  rw [Option.elim_some]
  exact Costs.le (costs_sequence _ ((costs_when _ (costs_utf8 i.profileName _)).seq fun _ _ => (costs_uint64 _ _ _).seq fun _ _ =>
    (costs_when _ (costs_octetString i.authorityDescriptor _)).seq fun _ _ => (costs_when _ (costs_octetString i.authorityHash _)).seq fun _ _ =>
    (costs_when _ (costs_octetString i.configurationDescriptor _)).seq fun _ _ => (costs_when _ (costs_octetString i.configurationHash _)).seq fun _ _ =>
    (costs_when _ (costs_octetString i.codeDescriptor _)).seq fun _ _ => costs_when _ (costs_octetString i.codeHash _))) (by rw [ROpenDiceInput.budget]; omega)

theorem costs_fwidLoop (l : List RFwid) (k : Nat) : CostsAny ((l.take k).map fun f => 150 + 3 * f.digest.size.toNat).sum (fwidLoopP l k) := by
  induction k with
  | zero => exact costs_pure _ trivial
  | succ k ih =>
    refine costs_element l k fun x hx => ?_
    rw [take_sum _ _ _ _ hx]
    exact Costs.le ((costs_sequence _ ((costs_octetString x.digest _).seq fun _ _ => costs_oid _ _)).seq fun _ _ => ih) (by omega)

theorem costs_fwids (t : RTcbInfo) : CostsAny (30 + (((t.fwids.getD []).take t.fwidsCount.toNat).map fun f => 150 + 3 * f.digest.size.toNat).sum) (fwidsFieldP t) := by
  unfold fwidsFieldP
  split
  · exact costs_pure _ trivial
  next l hl =>
  rw [hl, Option.getD_some]
  exact Costs.le (costs_sequence _ (costs_fwidLoop l _)) (by omega)

theorem costs_mask (p : Source) (ti : TagInfo) : CostsAny 39 (asn1BitstringP (some p) (8 * 4) ti) :=
  (costs_bitstring (some p) (8 * 4) ti).le (by decide)

theorem costs_tcbInfo (fr : Frame) (c : Option RTcbInfo) : CostsAny (c.elim 0 RTcbInfo.budget) (tcbInfoContentP fr c) := by
  unfold tcbInfoContentP
  split
  · exact costs_pure _ trivial
  next t =>
  rw [Option.elim_some]
  exact Costs.le (costs_sequence _ ((costs_mask _ _).seq fun _ _ => (costs_when _ (costs_octetString t.type _)).seq fun _ _ => (costs_when _ (costs_octetString t.vendorInfo _)).seq fun _ _ =>
    (costs_mask _ _).seq fun _ _ => (costs_fwids t).seq fun _ _ => (costs_int64 _ _ _).seq fun _ _ => (costs_int64 _ _ _).seq fun _ _ => (costs_int64 _ _ _).seq fun _ _ =>
    (costs_when _ (costs_utf8 t.version _)).seq fun _ _ => (costs_when _ (costs_utf8 t.model _)).seq fun _ _ => costs_when _ (costs_utf8 t.vendor _))) (by rw [RTcbInfo.budget]; omega)

theorem costs_multiLoop (fr : Frame) (l : List RTcbInfo) (k : Nat) : CostsAny ((l.take k).map RTcbInfo.budget).sum (multiTcbInfoLoopP fr l k) := by
  induction k with
  | zero => exact costs_pure _ trivial
  | succ k ih =>
    refine costs_element l k fun x hx => ?_
    rw [take_sum _ _ _ _ hx]
    exact Costs.le ((costs_tcbInfo fr (some x)).seq fun _ _ => ih) (by rw [Option.elim_some]; omega)

theorem costs_multiTcbInfo (fr : Frame) (c : Option RMultiTcbInfo) : CostsAny (c.elim 0 RMultiTcbInfo.budget) (multiTcbInfoContentP fr c) := by
  unfold multiTcbInfoContentP
  split
  · exact costs_pure _ trivial
  next i =>
  rw [Option.elim_some]
  refine Costs.le (costs_sequence _ (?_ : CostsAny (((i.list.getD []).take i.count.toNat).map RTcbInfo.budget).sum _)) (by rw [RMultiTcbInfo.budget]; omega)
  unfold multiTcbInfoSequenceP
  split
  · exact costs_pure _ trivial
  · next l hl => rw [hl]; exact costs_multiLoop fr l _

theorem costs_oneSlice (c : Option RSlice) : CostsAny (100 + 3 * c.elim 0 (·.size.toNat)) (oneSliceContentP c) := by
  unfold oneSliceContentP
  split
  · exact costs_pure _ trivial
  · exact Costs.le (costs_sequence _ (costs_octetString _ _)) (by rw [Option.elim_some]; omega)

/-! ## All of them -/

theorem costs_maybe {κ : Type} {K : κ → Nat} {f : κ → WP Unit} (hf : ∀ c, CostsAny (K c) (f c)) (class_ : UInt8) (constructed : Bool) (tag : UInt32) (cb : Option κ) (ti : TagInfo) :
    CostsAny (cb.elim 0 K + 30) (asn1HeaderWithContentP class_ constructed tag (cb.map f) ti) := by
  refine costs_withContent _ _ _ _ fun w hw => ?_
  cases cb with
  | none => cases hw
  | some c => cases hw; exact hf c

theorem costs_call {κ : Type} {K : κ → Nat} {f : κ → WP Unit} (hf : ∀ c, CostsAny (K c) (f c)) (c : RCall κ) : CostsAny (c.budget K) (c.prog f) := by
  cases c <;> simp only [RCall.budget, RCall.prog]
  case streamPrepend => exact (costs_prepend _ _).le (by omega)
  case streamPut => exact (costs_octet _).le (by omega)
  case base128Int => exact (costs_base128 _).le (by omega)
  case header => exact (costs_header _ _ _ _).le (by omega)
  case null => exact (costs_null _).le (by omega)
  case objectIdentifier => exact (costs_oid _ _).le (by omega)
  case integer => exact (costs_integer _ _ _ _).le (by omega)
  case uint64 => exact (costs_uint64 _ _ _).le (by omega)
  case int64 => exact (costs_int64 _ _ _).le (by omega)
  case bitstring => exact (costs_bitstring _ _ _).le (by omega)
  case octetstring => exact (costs_stringish _ _ _).le (by omega)
  case utf8String => exact (costs_stringGetD _ _ _).le (by omega)
  case printablestring => exact (costs_stringGetD _ _ _).le (by omega)
  case generalizedTime => exact (costs_time _ _).le (by omega)
  case headerWithContent => exact Costs.le (costs_maybe hf _ _ _ _ _) (by omega)
  case sequence => exact Costs.le (costs_maybe hf _ _ _ _ _) (by omega)
  case boolean => exact (costs_boolean _ _).le (by omega)
  case cborHeader => exact (costs_cborHeader _ _).le (by omega)
  case cborNull => exact (costs_cborHeader _ _).le (by omega)
  case cborBool => exact (costs_cborHeader _ _).le (by omega)
  case cborTag => exact (costs_cborHeader _ _).le (by omega)
  case cborUint => exact (costs_cborHeader _ _).le (by omega)
  case cborInt => exact (costs_cborInt _).le (by omega)
  case cborByteString => exact (costs_cborString _ _).le (by omega)
  case cborTextString => exact (costs_cborString _ _).le (by omega)
  case cborArrayHeader => exact (costs_cborHeader _ _).le (by omega)
  case cborMapHeader => exact (costs_cborHeader _ _).le (by omega)
  case name n => exact (costs_name n).le (by cases n <;> simp only [Option.elim_none, Option.elim_some] <;> omega)
  case extension e =>
    cases e with
    | none => exact costs_pure _ trivial
    | some e => exact costs_extension hf e
  case basicConstraints => exact (costs_basicConstraints _ _).le (by omega)
  case keyUsage => exact (costs_keyUsage _).le (by omega)
  case certTbs => exact (costs_tbs hf _ _).le (by omega)
  case cert => exact (costs_cert hf _ _).le (by omega)
  case openDiceInput => exact costs_openDice _ _
  case tcbFreshness => exact costs_oneSlice _
  case tcbInfo => exact costs_tcbInfo _ _
  case multiTcbInfo => exact costs_multiTcbInfo _ _
  case ueid => exact costs_oneSlice _

theorem costs_all {κ : Type} {K : κ → Nat} {f : κ → WP Unit} (hf : ∀ c, CostsAny (K c) (f c)) (cs : List (RCall κ)) : CostsAny (cs.map (RCall.budget K)).sum (runAll f cs) := by
  induction cs with
  | nil => exact costs_pure _ trivial
  | cons c cs ih =>
    rw [List.map_cons, List.sum_cons]
    exact (costs_call hf c).seq fun _ _ => ih

theorem costs_contents (n : Nat) : ∀ cs : Content n, CostsAny (Content.budget n cs) (Content.prog n cs) := by
  induction n with
  | zero => intro c; exact nomatch c
  | succ n ih => intro cs; exact costs_all ih cs

end Nat20

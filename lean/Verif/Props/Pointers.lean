import Verif.Model.Pointers
import Verif.Lemmas.Stream
import Verif.Lemmas.Digest
/-!
# C92: pointers stay inside of objects
-/

namespace Nat20

/-- A rendering function with all its results, seen as one that can compute pointers. -/
def noPointerW {α : Type} (w : W α) : PW α := fun sp => noPointer (w sp)

/-- Legal streams: NULL, or what `n20_stream_init` and rendering functions make. -/
def Legal (sp : Option Stream) : Prop := ∀ s, sp = some s → s.WF

/-- On all legal streams every pointer that is computed is inside of its object (or one past its end): the function with the checks does the same as the one without. -/
def PointersInside {α : Type} (c : PW α) (w : W α) : Prop := ∀ sp, Legal sp → c sp = noPointer (w sp)

/-- As above, and the stream stays legal. -/
def Inside {α : Type} (c : PW α) (w : W α) : Prop := ∀ sp, Legal sp → c sp = noPointer (w sp) ∧ ∀ a sp', w sp = .ok (a, sp') → Legal sp'

theorem Inside.pointers {α : Type} {c : PW α} {w : W α} (h : Inside c w) : PointersInside c w := fun sp hs => (h sp hs).1

theorem inside_pure {α : Type} (a : α) : Inside (Pure.pure a) (Pure.pure a) := fun sp hs => ⟨rfl, fun b sp' h => by cases h; exact hs⟩

theorem inside_bind {α β : Type} {c : PW α} {w : W α} {f : α → PW β} {g : α → W β} (h : Inside c w) (hf : ∀ a, Inside (f a) (g a)) : Inside (c >>= f) (w >>= g) := by
  intro sp hs
  obtain ⟨h1, h2⟩ := h sp hs
  show (c sp >>= fun r => f r.1 r.2) = noPointer (w sp >>= fun r => g r.1 r.2) ∧ ∀ a sp', (w sp >>= fun r => g r.1 r.2) = .ok (a, sp') → Legal sp'
  rw [h1]
  cases hw : w sp with
  | error u => exact ⟨rfl, fun a sp' h => by cases h⟩
  | ok r => exact hf r.1 r.2 (h2 r.1 r.2 hw)

theorem inside_lift {α : Type} {x : Except Fault α} {y : Except UB α} (h : x = noPointer y) : Inside (liftM x : PW α) (liftM y : W α) := by
  subst h
  intro sp hs
  cases y with
  | error u => exact ⟨rfl, fun a sp' h => by cases h⟩
  | ok a => exact ⟨rfl, fun a sp' h => by cases h; exact hs⟩

theorem prependC_eq (src : Option Ptr) (len : UInt64) : PointersInside (streamPrependC src len) (streamPrepend src len) := by
  intro sp hs
  cases sp with
  | none => rfl
  | some s =>
    have hw := hs s rfl
    unfold streamPrependC streamPrepend
    dsimp only
    split
    · rfl
    · next h =>
      simp only [Bool.or_eq_true, decide_eq_true_eq, not_or, Bool.not_eq_true] at h
      obtain ⟨⟨⟨-, -⟩, h1⟩, h2⟩ := h
      obtain ⟨mem, hm, hsz, -⟩ := hw.good h1
      have hle : s.writePosition + len ≤ s.size := by
        rw [UInt64.le_iff_toNat_le]
        rw [UInt64.lt_iff_toNat_lt] at h2
        omega
      have hsub := UInt64.toNat_sub_of_le _ _ hle
      rw [hm]
      dsimp only
      rw [if_neg (by omega)]
      cases memcpy (some mem) (s.size - (s.writePosition + len)) src len <;> rfl

theorem inside_prepend (p : Ptr) (len : UInt64) (h : len.toNat ≤ p.data.length) : Inside (streamPrependC (some p) len) (streamPrepend (some p) len) := by
  intro sp hs
  refine ⟨prependC_eq _ _ sp hs, fun a sp' hr => ?_⟩
  have hp := prepends_streamPrepend h
  cases sp with
  | none => rw [hp.null] at hr; cases hr; exact hs
  | some s =>
    obtain ⟨s', h1, h2, -⟩ := hp.run s (hs s rfl)
    rw [h1] at hr
    cases hr
    intro t ht
    cases ht
    exact h2

theorem inside_byte (b : UInt8) : Inside (streamPrependC (localPtr [b]) 1) (prependLocal [b]) := inside_prepend _ _ (by simp)

theorem form_ok {p : Ptr} {i : Int} (h : -(p.before.length : Int) ≤ i) (h' : i ≤ p.data.length) : p.form i = .ok () := by
  unfold Ptr.form
  rw [if_pos ⟨h, h'⟩]

theorem inside_form {β : Type} {x : Except Fault Unit} {f : Unit → PW β} {w : W β} (h : x = .ok ()) (hf : Inside (f ()) w) : Inside (liftM x >>= f) w := by
  subst h
  exact hf

/-- `msb` and `end` stay between the two ends of the number. -/
theorem stripC_eq (p : Ptr) (pad : UInt8) (inc end_ : Int) (n : Nat) (h : ∀ k : Nat, k ≤ n → -(p.before.length : Int) ≤ end_ - k * inc ∧ end_ - k * inc ≤ p.data.length) :
    stripLoopC p pad inc end_ n = noPointer (stripLoop p pad inc end_ n) := by
  induction n with
  | zero =>
    unfold stripLoopC stripLoop
    cases p.read end_ <;> rfl
  | succ n ih =>
    unfold stripLoopC stripLoop
    cases hr : p.read (end_ - (n + 1) * inc) with
    | error u => rfl
    | ok b =>
      show (if b = pad then (do p.form (end_ - n * inc); stripLoopC p pad inc end_ n) else _) = noPointer (if b = pad then stripLoop p pad inc end_ n else _)
      split
      · rw [form_ok (h n (by omega)).1 (h n (by omega)).2]
        exact ih fun k hk => h k (by omega)
      · rfl

theorem inside_write (p : Ptr) (inc : Int) (n : Nat) : ∀ end_ : Int, (∀ k : Nat, k ≤ n → -(p.before.length : Int) ≤ end_ - k * inc ∧ end_ - k * inc ≤ p.data.length) →
    Inside (writeLoopC p inc end_ n) (writeLoop p inc end_ n) := by
  induction n with
  | zero => intro end_ h; exact inside_pure ()
  | succ n ih =>
    intro end_ h
    unfold writeLoopC writeLoop
    have h1 := h 1 (by omega)
    rw [show end_ - (1 : Nat) * inc = end_ - inc by omega] at h1
    refine inside_form (form_ok h1.1 h1.2) ?_
    refine inside_bind (inside_lift rfl) fun b => inside_bind (inside_byte b) fun _ => ih _ fun k hk => ?_
    have := h (k + 1) (by omega)
    rw [show end_ - ((k + 1 : Nat) : Int) * inc = end_ - inc - k * inc by push_cast; rw [Int.add_mul]; omega] at this
    exact this

theorem stripLoop_le (p : Ptr) (pad : UInt8) (inc end_ : Int) (n r : Nat) (h : stripLoop p pad inc end_ n = .ok r) : r ≤ n := by
  induction n with
  | zero =>
    unfold stripLoop at h
    cases hr : p.read end_ with
    | error u => rw [hr] at h; cases h
    | ok b => rw [hr] at h; cases h; omega
  | succ n ih =>
    unfold stripLoop at h
    cases hr : p.read (end_ - (n + 1) * inc) with
    | error u => rw [hr] at h; cases h
    | ok b =>
      rw [hr] at h
      replace h : (if b = pad then stripLoop p pad inc end_ n else Pure.pure (n + 1)) = .ok r := h
      split at h
      · have := ih h
        omega
      · cases h; omega

theorem inside_lift_bind {α β : Type} {x : Except Fault α} {y : Except UB α} {f : α → PW β} {g : α → W β} (h : x = noPointer y) (hf : ∀ a, y = .ok a → Inside (f a) (g a)) :
    Inside (liftM x >>= f) (liftM y >>= g) := by
  subst h
  intro sp hs
  cases y with
  | error u => exact ⟨rfl, fun a sp' h => by cases h⟩
  | ok a => exact hf a rfl sp hs

theorem inside_integer (p : Ptr) (size : UInt64) (le tc : Bool) (h : size.toNat ≤ p.data.length) (hle : le = true → p.before ≠ []) :
    Inside (asn1IntegerContentC p size le tc) (asn1IntegerContent p size le tc) := by
  have hrange : ∀ k : Nat, k ≤ size.toNat → -(p.before.length : Int) ≤ (if le then -1 else (size.toNat : Int)) - k * (if le then -1 else 1) ∧
      (if le then -1 else (size.toNat : Int)) - k * (if le then -1 else 1) ≤ p.data.length := by
    intro k hk
    cases le with
    | false => simp only [Bool.false_eq_true, if_false]; omega
    | true =>
      have : 0 < p.before.length := List.length_pos_iff.2 (hle rfl)
      simp only [if_true]
      omega
  have hinit : integerPointers p size.toNat le = .ok () := by
    unfold integerPointers
    cases le with
    | false => exact form_ok (by omega) (by omega)
    | true =>
      have : 0 < p.before.length := List.length_pos_iff.2 (hle rfl)
      rw [form_ok (by omega) (by omega), form_ok (i := (size.toNat : Int) - 1) (by omega) (by omega), form_ok (i := -1) (by omega) (by omega)]
      rfl
  unfold asn1IntegerContentC asn1IntegerContent
  dsimp only
  refine inside_form hinit ?_
  refine inside_lift_bind rfl fun neg _ => inside_lift_bind (stripC_eq _ _ _ _ _ hrange) fun r hr => inside_lift_bind rfl fun ex _ => ?_
  have hr := stripLoop_le _ _ _ _ _ _ hr
  refine inside_bind (inside_write p _ r _ fun k hk => hrange k (by omega)) fun _ => ?_
  split
  · exact inside_byte _
  · exact inside_pure ()

/-! ## C92 -/

/-- **C92.** Writing to a stream, whatever is written and whether or not it fits, computes no pointer outside of the buffer. -/
theorem C92_prepend (src : Option Ptr) (len : UInt64) : PointersInside (streamPrependC src len) (streamPrepend src len) := prependC_eq src len

/-- **C92.** So does rendering a big-endian INTEGER, for all numbers with and without sign, up to what happens anyway (C12): all pointers are in the number or one past its end. -/
theorem C92_big_endian (p : Ptr) (size : UInt64) (tc : Bool) (h : size.toNat ≤ p.data.length) :
    PointersInside (asn1IntegerContentC p size false tc) (asn1IntegerContent p size false tc) :=
  (inside_integer p size false tc h (fun h => by cases h)).pointers

/-- **C92** (partial). Little-endian INTEGERs need something in front of the number. -/
theorem C92_little_endian_partial (p : Ptr) (size : UInt64) (tc : Bool) (h : size.toNat ≤ p.data.length) (hb : p.before ≠ []) :
    PointersInside (asn1IntegerContentC p size true tc) (asn1IntegerContent p size true tc) :=
  (inside_integer p size true tc h (fun _ => hb)).pointers

/-- **C92, negated** for little-endian INTEGERs: for every number that is the whole object (as are the parameters of `n20_asn1_uint64` and `n20_asn1_int64` on little-endian hosts) the pointer
in front of it is computed, whatever the stream is. -/
theorem C92_little_endian (data : Bytes) (size : UInt64) (tc : Bool) (sp : Option Stream) : asn1IntegerContentC ⟨[], data⟩ size true tc sp = .error .pointer := by
  have : integerPointers ⟨[], data⟩ size.toNat true = .error .pointer := by
    unfold integerPointers
    simp only [if_true]
    have h1 : Ptr.form ⟨[], data⟩ (-1) = .error .pointer := by
      unfold Ptr.form
      rw [if_neg (by simp)]
    have hf : ∀ i, Ptr.form ⟨[], data⟩ i = .ok () ∨ Ptr.form ⟨[], data⟩ i = .error .pointer := fun i => by
      unfold Ptr.form
      split
      · exact Or.inl rfl
      · exact Or.inr rfl
    rcases hf size.toNat with e | e <;> rw [e]
    · rcases hf ((size.toNat : Int) - 1) with e | e <;> rw [e]
      · rw [h1]; rfl
      · rfl
    · rfl
  unfold asn1IntegerContentC
  dsimp only
  rw [this]
  rfl

/-- **C92.** `n20_stream_data` computes a pointer into the buffer exactly if there is a buffer and nothing did overflow … -/
theorem C92_data (s : Stream) (hs : s.WF) (h : s.bufferOverflow = false) : streamDataC (some s) = .ok (streamData (some s)) := by
  obtain ⟨mem, hm, h1, h2⟩ := hs.good h
  have hsub := UInt64.toNat_sub_of_le s.size s.writePosition (UInt64.le_iff_toNat_le.2 h2)
  unfold streamDataC streamData
  dsimp only
  rw [hm]
  dsimp only
  rw [if_neg (by omega)]

/-- **C92, negated** for `n20_stream_data` on a stream without buffer, and on one whose data did not fit: the pointer is computed nevertheless and is not in the buffer.  The documentation only forbids to
dereference it. -/
theorem C92_data_overflow (s : Stream) (h : s.begin_ = none ∨ ∃ mem, s.begin_ = some mem ∧ mem.length = s.size.toNat ∧ s.size < s.writePosition) :
    streamDataC (some s) = .error .pointer := by
  unfold streamDataC
  dsimp only
  rcases h with h | ⟨mem, h, h1, h2⟩
  · rw [h]
  · rw [h]
    dsimp only
    have h3 := UInt64.lt_iff_toNat_lt.1 h2
    have h4 := s.writePosition.toNat_lt
    have h5 := s.size.toNat_lt
    have : (s.size - s.writePosition).toNat = 2 ^ 64 - s.writePosition.toNat + s.size.toNat := by
      rw [UInt64.toNat_sub]
      omega
    rw [if_pos (by omega)]

section
variable (a : Fips.Alg) (prk info : Slice) (hpv : prk.Valid) (hpb : prk.buffer ≠ none) (hpl : prk.bytes.length < 2 ^ 61) (hv : info.Valid)
  (hn : info.buffer = none → info.size = 0) (hil : 256 + info.bytes.length < 2 ^ 61) (L : UInt64) (mem0 : Bytes) (hL : L.toNat ≤ mem0.length)

include hpv hpb hpl hv hn hil hL in
theorem expandLoopC_eq (fuel : Nat) : ∀ k : Nat, k * a.size ≤ L.toNat → expandLoopC nat20Ctx.hmac (algId a) prk info fuel (expandAt a prk.bytes info.bytes L mem0 k) =
    noPointer (expandLoop nat20Ctx.hmac (algId a) prk info fuel (expandAt a prk.bytes info.bytes L mem0 k)) := by
  have hsl := size_lt a
  have hszN : (UInt64.ofNat a.size).toNat = a.size := by rw [UInt64.toNat_ofNat']; exact Nat.mod_eq_of_lt hsl
  have hLlt := L.toNat_lt
  induction fuel with
  | zero => intro k hk; rfl
  | succ fuel ih =>
    intro k hk
    unfold expandLoopC expandLoop
    have hkey : (expandAt a prk.bytes info.bytes L mem0 k).keyOctets.toNat = L.toNat - k * a.size := by
      have e : (UInt64.ofNat (k * a.size)).toNat = k * a.size := by rw [UInt64.toNat_ofNat']; exact Nat.mod_eq_of_lt (by omega)
      simp only [expandAt]
      rw [UInt64.toNat_sub_of_le _ _ (UInt64.le_iff_toNat_le.2 (by rw [e]; exact hk)), e]
    have hds : (expandAt a prk.bytes info.bytes L mem0 k).digestSize = UInt64.ofNat a.size := rfl
    split
    · next h =>
      have h1 := UInt64.le_iff_toNat_le.1 h
      rw [hkey, hds, hszN] at h1
      have hk1 : (k + 1) * a.size ≤ L.toNat := by rw [Nat.add_mul]; omega
      have hstep := expandStep_ok a prk info hpv hpb hpl hv hn hil L mem0 hL k hk1
      unfold expandStepC
      rw [hstep]
      have hlen : ¬ (expandAt a prk.bytes info.bytes L mem0 k).mem.length < (expandAt a prk.bytes info.bytes L mem0 (k + 1)).off := by
        simp only [expandAt, List.length_append, List.length_drop, hkdfBlocks_length]
        omega
      show (if _ then _ else Except.ok _ : Except Fault ExpandState) >>= _ = _
      rw [if_neg hlen]
      exact ih (k + 1) hk1
    · rfl

include hpv hpb hpl hv hn hil hL in
/-- **C92.** The output pointer of `hkdf_expand` moves inside of the output buffer and at most to its end, for all lengths. -/
theorem C92_expand : expandLoopC nat20Ctx.hmac (algId a) prk info (L.toNat + 1) ⟨L, digestEnumToSize (algId a), mem0, 0, none, 1⟩ =
    noPointer (expandLoop nat20Ctx.hmac (algId a) prk info (L.toNat + 1) ⟨L, digestEnumToSize (algId a), mem0, 0, none, 1⟩) := by
  have hinit : (⟨L, digestEnumToSize (algId a), mem0, 0, none, 1⟩ : ExpandState) = expandAt a prk.bytes info.bytes L mem0 0 := by
    have e : digestEnumToSize (algId a) = UInt64.ofNat a.size := by cases a <;> rfl
    simp [expandAt, hkdfBlocks, e]
  rw [hinit]
  exact expandLoopC_eq a prk info hpv hpb hpl hv hn hil L mem0 hL _ 0 (by simp)

end

/-- Non-vacuity of C92: a stream with a buffer in which something was written, a number in both byte orders. -/
example : Legal (some ⟨some [9, 9, 9, 1], 4, 1, false, false⟩) ∧
    asn1IntegerContentC ⟨[], [0, 0x81]⟩ 2 false false (some ⟨some [9, 9, 9, 1], 4, 1, false, false⟩) = .ok ((), some ⟨some [9, 0, 0x81, 1], 4, 3, false, false⟩) ∧
    asn1IntegerContentC ⟨[7], [0x81, 0]⟩ 2 true false (some ⟨some [9, 9, 9, 1], 4, 1, false, false⟩) = .ok ((), some ⟨some [9, 0, 0x81, 1], 4, 3, false, false⟩) ∧
    streamDataC (some ⟨some [9, 9, 9, 1], 4, 1, false, false⟩) = .ok (some 3) := by
  refine ⟨?_, by decide +kernel, by decide +kernel, by decide +kernel⟩
  intro s hs
  cases hs
  exact ⟨fun h => (by cases h), fun _ => ⟨_, rfl, by decide, by decide⟩⟩

end Nat20

import Verif.Lemmas.Writers
/-!
# Lemmas: every rendering function with addresses follows the one with values
-/

namespace Nat20

section
variable {α β : Type} {m0 : Memory} {L L' : Addr → Prop}

/-- The address of `s[i]`. -/
def Source.AtIdx (s : Source) (i : Int) (x : Addr) : Prop :=
  match s with
  | .mem a => x.region = a.region ∧ (x.off : Int) = a.off + i
  | .const _ => False

theorem atIdx_near (s : Source) (n : Nat) (i : Int) (x : Addr) (h1 : -1 ≤ i) (h2 : i ≤ n) (h : s.AtIdx i x) : s.Near n x := by
  cases s with
  | const _ => exact h
  | mem a =>
    obtain ⟨h3, h4⟩ := h
    exact ⟨h3, by omega, by omega⟩

theorem atIdx_has (s : Source) (n : Nat) (i : Int) (x : Addr) (h1 : 0 ≤ i) (h2 : i < n) (h : s.AtIdx i x) : s.Has n x := by
  cases s with
  | const _ => exact h
  | mem a =>
    obtain ⟨h3, h4⟩ := h
    exact ⟨h3, by omega, by omega⟩

theorem reads_read (s : Source) (i : Int) (h : ∀ x, s.AtIdx i x → L' x) : (s.readP i).OnlyReads L' fun _ => True := by
  intro S
  cases s with
  | const p =>
    simp only [Source.readP]
    cases p.read i with
    | ok b => exact .done _ _ ⟨rfl, trivial⟩
    | error u => exact .crash _ _
  | mem a =>
    simp only [Source.readP]
    split
    · exact .load _ _ _ (h _ ⟨rfl, by simp only; omega⟩) fun b => .done _ _ ⟨rfl, trivial⟩
    · exact .crash _ _

theorem run_read (s : Source) (n : Nat) (i : Int) (hL : ∀ x, s.Has n x → L x) (m : Memory) (hm : Intact L m0 m) (b : UInt8) (h : (s.value m0 n).read i = .ok b) :
    (s.readP i).run m = .ok (b, m) := by
  cases s with
  | const p =>
    simp only [Source.value] at h
    simp only [Source.readP, h]
    rfl
  | mem a =>
    simp only [Source.value, Ptr.read] at h
    split at h
    · next hi =>
      split at h
      · next c hc =>
        cases h
        have hg := source_get m m0 hm a n hL _ _ hc
        simp only [Source.readP]
        rw [if_pos (by omega)]
        refine run_load m _ b _ ?_
        rw [← hg]
        unfold Addr.plus
        congr 2
        omega
      · cases h
    · simp at h

theorem follows_read (s : Source) (n : Nat) (i : Int) (hL : ∀ x, s.Has n x → L x) (h : ∀ x, s.AtIdx i x → L' x) :
    Follows m0 L L' (liftP (s.readP i)) (liftM ((s.value m0 n).read i)) :=
  follows_lift (reads_read s i h) fun m b hm hb => run_read s n i hL m hm b hb

theorem follows_lift_bind {Q : α → Prop} {q : Prog α} {e : Except UB α} {f : α → WP β} {g : α → W β} (h1 : q.OnlyReads L' Q)
    (h2 : ∀ m x, Intact L m0 m → e = .ok x → q.run m = .ok (x, m)) (hf : ∀ x, Q x → Follows m0 L L' (f x) (g x)) :
    Follows m0 L L' (liftP q >>= f) (liftM e >>= g) := by
  refine ⟨fun v => ?_, fun m v y s' hm hv hw => ?_⟩
  · refine Prog.Once.seq (Q := fun T r => T = Unwritten v ∧ Q r.1 ∧ r.2 = v) (Prog.Once.seq (h1 _) fun T x hx => .done _ _ ⟨hx.1, hx.2, rfl⟩) fun T r hr => ?_
    obtain ⟨x, v1⟩ := r
    obtain ⟨hT, hx, rfl⟩ := hr
    rw [hT]
    exact (hf x hx).once _
  · have hw : ((e.bind fun x => Except.ok (x, v.map (SVars.view m))).bind fun r => g r.1 r.2) = Except.ok (y, s') := hw
    cases he : e with
    | error u => rw [he] at hw; cases hw
    | ok x =>
      rw [he] at hw
      have hq := h2 m x hm he
      have hQ := within_result h1.within m m x hq
      obtain ⟨v', m', k1, k2⟩ := (hf x hQ).sim m v y s' hm hv hw
      refine ⟨v', m', ?_, k2⟩
      have : (liftP q v).run m = .ok ((x, v), m) := run_bind hq
      exact (run_bind (f := fun r => f r.1 r.2) this).trans k1

theorem follows_element {ι A B : Type} (l : List ι) (a : ι → A) (b : ι → B) (k : Nat) {f : A → WP β} {g : B → W β} (h : ∀ x, l[k]? = some x → Follows m0 L L' (f (a x)) (g (b x))) :
    Follows m0 L L' (liftP (pureP (readElement (l.map a) k)) >>= f) (liftM (readElement (l.map b) k) >>= g) := by
  unfold readElement
  rw [List.getElem?_map, List.getElem?_map]
  cases hx : l[k]? with
  | none =>
    refine ⟨fun v => .crash _ _, fun m v y s' _ _ hw => ?_⟩
    have hw : (Except.error UB.oobRead : Except UB (β × Option Stream)) = .ok (y, s') := hw
    cases hw
  | some x => exact h x hx

theorem Follows.ite (c : Prop) [Decidable c] {p q : WP α} {w u : W α} (h1 : c → Follows m0 L L' p w) (h2 : ¬ c → Follows m0 L L' q u) :
    Follows m0 L L' (if c then p else q) (if c then w else u) := by
  split
  · next h => exact h1 h
  · next h => exact h2 h

/-! ## asn1.c -/

theorem follows_base128Loop (n : UInt64) (t : UInt8) : Follows m0 L L' (base128LoopP n t) (base128Loop n t) := by
  rw [base128LoopP, base128Loop]
  refine (follows_local _).bind fun _ => ?_
  simp only
  split
  · next h => exact follows_base128Loop _ _
  · exact Follows.pure _
termination_by n.toNat
decreasing_by
  rename_i h
  have h2 : (n >>> 7).toNat = n.toNat / 128 := by
    rw [UInt64.toNat_shiftRight]; simp [Nat.shiftRight_eq_div_pow]
  have h3 : (n >>> 7).toNat ≠ 0 := by
    intro h0; apply h; apply UInt64.toNat_inj.1; exact h0
  show (n >>> 7).toNat < n.toNat
  omega

theorem follows_base128 (n : UInt64) : Follows m0 L L' (asn1Base128IntP n) (asn1Base128Int n) := follows_base128Loop n _

theorem follows_lengthLoop (len : UInt64) (l : UInt8) (bytes : UInt64) : Follows m0 L L' (lengthLoopP len l bytes) (lengthLoop len l bytes) := by
  rw [lengthLoopP, lengthLoop]
  refine (follows_local _).bind fun _ => ?_
  simp only
  split
  · next h => exact follows_lengthLoop _ _ _
  · exact Follows.pure _
termination_by len.toNat
decreasing_by
  rename_i h
  have h2 : (len >>> 8).toNat = len.toNat / 256 := by
    rw [UInt64.toNat_shiftRight]; simp [Nat.shiftRight_eq_div_pow]
  have h3 : (len >>> 8).toNat ≠ 0 := by
    intro h0; apply h; apply UInt64.toNat_inj.1; exact h0
  show (len >>> 8).toNat < len.toNat
  omega

theorem follows_headerLength (len : UInt64) : Follows m0 L L' (headerLengthP len) (headerLength len) :=
  Follows.ite _ (fun _ => follows_local _) fun _ => (follows_lengthLoop _ _ _).bind fun _ => follows_local _

theorem follows_headerTag (tag : UInt32) : Follows m0 L L' (headerTagP tag) (headerTag tag) :=
  Follows.ite _ (fun _ => (follows_base128 _).bind fun _ => Follows.pure _) fun _ => Follows.pure _

theorem follows_header (class_ : UInt8) (constructed : Bool) (tag : UInt32) (len : UInt64) :
    Follows m0 L L' (asn1HeaderP class_ constructed tag len) (asn1Header class_ constructed tag len) :=
  (follows_headerLength len).bind fun _ => (follows_headerTag tag).bind fun _ => follows_local _

theorem follows_explicit (ti : TagInfo) (mark : UInt64) : Follows m0 L L' (explicitHeaderP ti mark) (explicitHeader ti mark) :=
  Follows.ite _ (fun _ => follows_byteCount.bind fun _ => follows_header _ _ _ _) fun _ => Follows.pure _

theorem follows_null (ti : TagInfo) : Follows m0 L L' (asn1NullP ti) (asn1Null ti) :=
  follows_byteCount.bind fun _ => (follows_header _ _ _ _).bind fun _ => follows_explicit _ _

/-- A callback follows another one, or neither is there. -/
def FollowsOpt (m0 : Memory) (L L' : Addr → Prop) : Option (WP Unit) → Option (W Unit) → Prop
  | some p, some w => Follows m0 L L' p w
  | none, none => True
  | _, _ => False

theorem Follows.opt {p : WP Unit} {w : W Unit} (h : Follows m0 L L' p w) : FollowsOpt m0 L L' (some p) (some w) := h

theorem follows_call {p : Option (WP Unit)} {w : Option (W Unit)} (h : FollowsOpt m0 L L' p w) : Follows m0 L L' (callContentP p) (callContent w) := by
  cases p <;> cases w
  · exact Follows.pure _
  · exact h.elim
  · exact h.elim
  · exact h

theorem follows_hwc (class_ : UInt8) (constructed : Bool) (tag : UInt32) {p : Option (WP Unit)} {w : Option (W Unit)} (h : FollowsOpt m0 L L' p w) (ti : TagInfo) :
    Follows m0 L L' (asn1HeaderWithContentP class_ constructed tag p ti) (asn1HeaderWithContent class_ constructed tag w ti) :=
  follows_byteCount.bind fun _ => (follows_call h).bind fun _ => follows_byteCount.bind fun _ => (follows_header _ _ _ _).bind fun _ => follows_explicit _ _

theorem follows_sequence {p : Option (WP Unit)} {w : Option (W Unit)} (h : FollowsOpt m0 L L' p w) (ti : TagInfo) :
    Follows m0 L L' (asn1SequenceP p ti) (asn1Sequence w ti) := follows_hwc _ _ _ h ti

theorem follows_oidLoop (oid : Oid) : ∀ e, Follows m0 L L' (oidLoopP oid e) (oidLoop oid e)
  | 0 => Follows.pure _
  | e + 1 => Follows.ite _ (fun _ => (follows_pureP _).bind fun _ => (follows_base128 _).bind fun _ => follows_oidLoop oid e) fun _ => Follows.pure _

theorem follows_oid (oid : Option Oid) (ti : TagInfo) : Follows m0 L L' (asn1ObjectIdentifierP oid ti) (asn1ObjectIdentifier oid ti) := by
  cases oid with
  | none => exact follows_null _
  | some oid =>
    refine Follows.ite _ (fun _ => follows_null _) fun _ => follows_hwc _ _ _ ?_ _
    exact (follows_oidLoop _ _).bind fun _ => (follows_pureP _).bind fun _ => follows_local _

theorem reads_strip (s : Source) (pad : UInt8) (inc end_ : Int) (n : Nat) : (∀ k : Nat, k ≤ n → ∀ x, s.AtIdx (end_ - k * inc) x → L' x) →
    (stripLoopP s pad inc end_ n).OnlyReads L' fun r => r ≤ n := by
  induction n with
  | zero =>
    intro h
    refine (reads_read s end_ fun x hx => h 0 (Nat.le_refl _) x (by simpa using hx)).seq fun _ _ => onlyReads_done _ (Nat.le_refl _)
  | succ n ih =>
    intro h
    refine (reads_read s _ fun x hx => h (n + 1) (Nat.le_refl _) x (by simpa using hx)).seq fun b _ => ?_
    split
    · exact (ih fun k hk => h k (by omega)).mono fun r hr => by omega
    · exact onlyReads_done _ (Nat.le_refl _)

theorem run_strip (s : Source) (N : Nat) (hL : ∀ x, s.Has N x → L x) (m : Memory) (hm : Intact L m0 m) (pad : UInt8) (inc end_ : Int) (n : Nat) :
    ∀ r, stripLoop (s.value m0 N) pad inc end_ n = .ok r → (stripLoopP s pad inc end_ n).run m = .ok (r, m) := by
  induction n with
  | zero =>
    intro r h
    rw [stripLoop] at h
    obtain ⟨b, h1, h2⟩ := ok_of_bind h
    rw [stripLoopP, run_bind (run_read s N _ hL m hm b h1)]
    cases h2
    rfl
  | succ n ih =>
    intro r h
    rw [stripLoop] at h
    obtain ⟨b, h1, h2⟩ := ok_of_bind h
    rw [stripLoopP, run_bind (run_read s N _ hL m hm b h1)]
    split at h2
    · next hb => rw [if_pos hb]; exact ih r h2
    · next hb => rw [if_neg hb]; cases h2; rfl

theorem follows_writeLoop (s : Source) (N : Nat) (hL : ∀ x, s.Has N x → L x) (inc : Int) : ∀ (n : Nat) (end_ : Int), (∀ k : Nat, k < n → ∀ x, s.AtIdx (end_ - (k + 1) * inc) x → L' x) →
    Follows m0 L L' (writeLoopP s inc end_ n) (writeLoop (s.value m0 N) inc end_ n)
  | 0, _, _ => Follows.pure _
  | n + 1, end_, h => by
    refine (follows_read s N _ hL fun x hx => h 0 (by omega) x (by simpa using hx)).bind fun b => (follows_local _).bind fun _ => ?_
    refine follows_writeLoop s N hL inc n _ fun k hk x hx => h (k + 1) (by omega) x ?_
    rw [show end_ - ((k + 1 : Nat) + 1) * inc = end_ - inc - (k + 1) * inc by simp only [Int.add_mul, Int.one_mul, Int.natCast_add, Int.natCast_one]; omega]
    exact hx

theorem follows_integerContent (s : Source) (size : UInt64) (le tc : Bool) (hL : ∀ x, s.Has size.toNat x → L x) (hN : ∀ x, s.Near size.toNat x → L' x) :
    Follows m0 L L' (asn1IntegerContentP s size le tc) (asn1IntegerContent (s.value m0 size.toNat) size le tc) := by
  have hidx : ∀ (k : Nat), k ≤ size.toNat → ∀ x, s.AtIdx ((if le then -1 else (size.toNat : Int)) - k * (if le then -1 else 1)) x → L' x := by
    intro k hk x hx
    refine hN x (atIdx_near s _ _ x ?_ ?_ hx) <;> cases le <;> simp <;> omega
  unfold asn1IntegerContentP asn1IntegerContent
  refine follows_lift_bind (Q := fun _ => True) ?_ ?_ fun neg _ => follows_lift_bind (reads_strip s _ _ _ _ hidx) (fun m r hm hr => run_strip s _ hL m hm _ _ _ _ r hr) fun rem hrem =>
    follows_lift_bind (Q := fun _ => True) ?_ ?_ fun extra _ => Follows.bind (follows_writeLoop s _ hL _ rem _ fun k hk x hx => hidx (k + 1) (by omega) x (by simpa using hx)) fun _ =>
      Follows.ite _ (fun _ => follows_local _) fun _ => Follows.pure _
  · unfold integerNegativeP
    split
    · exact (reads_read s _ fun x hx => hidx _ (Nat.le_refl _) x hx).seq fun _ _ => onlyReads_done _ trivial
    · exact onlyReads_done _ trivial
  · intro m x hm hx
    unfold integerNegative at hx
    unfold integerNegativeP
    split
    · next h =>
      rw [if_pos h] at hx
      obtain ⟨b, h1, h2⟩ := ok_of_bind hx
      rw [run_bind (run_read s _ _ hL m hm b h1)]
      cases h2
      rfl
    · next h =>
      rw [if_neg h] at hx
      cases hx
      rfl
  · unfold integerAddExtraP
    split
    · exact onlyReads_done _ trivial
    · exact (reads_read s _ fun x hx => hidx rem hrem x hx).seq fun _ _ => onlyReads_done _ trivial
  · intro m x hm hx
    unfold integerAddExtra at hx
    unfold integerAddExtraP
    split
    · next h =>
      rw [if_pos h] at hx
      cases hx
      rfl
    · next h =>
      rw [if_neg h] at hx
      obtain ⟨b, h1, h2⟩ := ok_of_bind hx
      rw [run_bind (run_read s _ _ hL m hm b h1)]
      cases h2
      rfl

theorem follows_integer (n : RSlice) (le tc : Bool) (ti : TagInfo) (hL : ∀ x, n.Has x → L x) (hN : ∀ x, n.Near x → L' x) :
    Follows m0 L L' (asn1IntegerP n le tc ti) (asn1Integer (n.value m0) le tc ti) := by
  obtain ⟨size, b⟩ := n
  cases b with
  | none => exact follows_null _
  | some s => exact follows_hwc _ _ _ (follows_integerContent s size le tc (fun x hx => hL x ⟨s, rfl, hx⟩) fun x hx => hN x ⟨s, rfl, hx⟩).opt _

theorem follows_constInteger (size : UInt64) (p : Ptr) (le tc : Bool) (ti : TagInfo) :
    Follows m0 L L' (asn1IntegerP ⟨size, some (.const p)⟩ le tc ti) (asn1Integer ⟨size, some p⟩ le tc ti) :=
  follows_integer ⟨size, some (.const p)⟩ le tc ti (fun x ⟨s, h1, h2⟩ => by cases h1; exact h2.elim) (fun x ⟨s, h1, h2⟩ => by cases h1; exact h2.elim)

theorem follows_uint64 (fr : Frame) (n : UInt64) (ti : TagInfo) : Follows m0 L L' (asn1UInt64P fr n ti) (asn1UInt64 fr n ti) := follows_constInteger _ _ _ _ _

theorem follows_int64 (fr : Frame) (n : Int64) (ti : TagInfo) : Follows m0 L L' (asn1Int64P fr n ti) (asn1Int64 fr n ti) := follows_constInteger _ _ _ _ _

theorem follows_bitstringLoop (s : Source) (N : Nat) (hL : ∀ x, s.Has N x → L x) (hsub : ∀ a, L a → L' a) : ∀ n, n ≤ N → Follows m0 L L' (bitstringLoopP s n) (bitstringLoop (s.value m0 N) n)
  | 0, _ => Follows.pure _
  | n + 1, h =>
    (follows_read s N _ hL fun x hx => hsub x (hL x (atIdx_has s N n x (by omega) (by omega) hx))).bind fun _ => (follows_local _).bind fun _ => follows_bitstringLoop s N hL hsub n (by omega)

theorem bitOctets_eq (bits : UInt64) : ((bits + 7) >>> 3).toNat ≤ bitOctets bits := by
  rw [UInt64.toNat_shiftRight, UInt64.toNat_add]
  unfold bitOctets
  simp only [UInt64.reduceToNat, Nat.reduceMod, Nat.shiftRight_eq_div_pow, Nat.reducePow]
  exact Nat.div_le_div_right (Nat.mod_le _ _)

theorem follows_bitstring (b : Option Source) (bits : UInt64) (ti : TagInfo) (hsub : ∀ a, L a → L' a) (hL : ∀ x, BitsHave b bits x → L x) :
    Follows m0 L L' (asn1BitstringP b bits ti) (asn1Bitstring (b.map (Source.value m0 (bitOctets bits))) bits ti) := by
  refine follows_hwc _ _ _ ?_ _
  show Follows m0 L L' (asn1BitstringContentP b bits) (asn1BitstringContent _ bits)
  unfold asn1BitstringContentP asn1BitstringContent
  rw [Option.isNone_map]
  refine Follows.bind ?_ fun _ => follows_local _
  unfold bitstringBytesP bitstringBytes
  refine Follows.ite _ (fun _ => Follows.pure _) fun hne => ?_
  cases b with
  | none => exact follows_pureP _
  | some s =>
    have hL : ∀ x, s.Has (bitOctets bits) x → L x := fun x hx => hL x ⟨s, rfl, hx⟩
    simp only [Option.isNone_some, Bool.false_eq_true, if_false] at hne
    have hlt : ((bits + 7) >>> 3 - 1).toNat < bitOctets bits := by
      have h1 := bitOctets_eq bits
      have h2 : ((bits + 7) >>> 3).toNat ≠ 0 := fun h => hne (UInt64.toNat_inj.1 h)
      rw [UInt64.toNat_sub_of_le _ _ (UInt64.le_iff_toNat_le.2 (by simp only [UInt64.reduceToNat]; omega))]
      simp only [UInt64.reduceToNat]
      omega
    exact (follows_read s _ _ hL fun x hx => hsub x (hL x (atIdx_has s _ _ x (by omega) (by exact_mod_cast hlt) hx))).bind fun _ => (follows_local _).bind fun _ =>
      follows_bitstringLoop s _ hL hsub _ (Nat.le_of_lt hlt)

theorem follows_constBits (p : Ptr) (bits : UInt64) (ti : TagInfo) (hsub : ∀ a, L a → L' a) : Follows m0 L L' (asn1BitstringP (some (.const p)) bits ti) (asn1Bitstring (some p) bits ti) :=
  follows_bitstring (some (.const p)) bits ti hsub fun x ⟨s, h1, h2⟩ => by cases h1; exact h2.elim

theorem follows_stringish (tag : UInt32) (s : Option RSlice) (ti : TagInfo) (hsub : ∀ a, L a → L' a) (hL : ∀ r, s = some r → ∀ x, r.Has x → L x) :
    Follows m0 L L' (asn1StringishP tag s ti) (asn1Stringish tag (s.map (RSlice.value m0)) ti) := by
  refine follows_hwc _ _ _ ?_ _
  show Follows m0 L L' (asn1StringishContentP s) (asn1StringishContent _)
  cases s with
  | none => exact Follows.pure _
  | some r =>
    have hL := hL r rfl
    obtain ⟨size, b⟩ := r
    cases b with
    | none => exact Follows.pure _
    | some s => exact follows_prepend (some s) size hsub fun x hx a ha => hL a ⟨x, hx, ha⟩

theorem follows_octets (s : RSlice) (ti : TagInfo) (hsub : ∀ a, L a → L' a) (hL : ∀ x, s.Has x → L x) :
    Follows m0 L L' (asn1OctetStringP (some s) ti) (asn1OctetString (some (s.value m0)) ti) :=
  follows_stringish _ (some s) ti hsub fun r hr x hx => hL x (by cases hr; exact hx)

theorem follows_printable (s : Option RSlice) (ti : TagInfo) (hsub : ∀ a, L a → L' a) (hL : ∀ r, s = some r → ∀ x, r.Has x → L x) :
    Follows m0 L L' (asn1PrintableStringP s ti) (asn1PrintableString (s.map (RSlice.value m0)) ti) := by
  cases s with
  | none => exact follows_stringish _ (some RSlice.null) ti hsub fun r hr x hx => by cases hr; obtain ⟨_, h, _⟩ := hx; cases h
  | some s => exact follows_stringish _ (some s) ti hsub fun r hr x hx => hL s rfl x (by cases hr; exact hx)

theorem follows_utf8 (s : Option RSlice) (ti : TagInfo) (hsub : ∀ a, L a → L' a) (hL : ∀ r, s = some r → ∀ x, r.Has x → L x) :
    Follows m0 L L' (asn1Utf8StringP s ti) (asn1Utf8String (s.map (RSlice.value m0)) ti) := by
  cases s with
  | none => exact follows_stringish _ (some RSlice.null) ti hsub fun r hr x hx => by cases hr; obtain ⟨_, h, _⟩ := hx; cases h
  | some s => exact follows_stringish _ (some s) ti hsub fun r hr x hx => hL s rfl x (by cases hr; exact hx)

theorem follows_time (s : Option RSlice) (ti : TagInfo) (hsub : ∀ a, L a → L' a) (hL : ∀ r, s = some r → ∀ x, r.Has x → L x) :
    Follows m0 L L' (asn1GeneralizedTimeP s ti) (asn1GeneralizedTime (s.map (RSlice.value m0)) ti) := by
  cases s with
  | none => exact follows_null _
  | some s => exact follows_stringish _ (some s) ti hsub fun r hr x hx => hL s rfl x (by cases hr; exact hx)

theorem follows_boolean (v : Bool) (ti : TagInfo) : Follows m0 L L' (asn1BooleanP v ti) (asn1Boolean v ti) := follows_hwc _ _ _ (follows_local _).opt _

/-! ## cbor.c -/

theorem follows_cborLoop (n : UInt64) : ∀ k i, Follows m0 L L' (cborValueLoopP n i k) (cborValueLoop n i k)
  | 0, _ => Follows.pure _
  | k + 1, i => (follows_local _).bind fun _ => follows_cborLoop n k (i + 1)

theorem follows_cborHeader (type : UInt32) (n : UInt64) : Follows m0 L L' (cborWriteHeaderP type n) (cborWriteHeader type n) :=
  (follows_cborLoop _ _ _).bind fun _ => follows_local _

theorem follows_cborInt (n : Int64) : Follows m0 L L' (cborWriteIntP n) (cborWriteInt n) :=
  Follows.ite _ (fun _ => follows_cborHeader _ _) fun _ => (follows_pureP _).bind fun _ => follows_cborHeader _ _

theorem follows_cborString (type : UInt32) (s : RSlice) (hsub : ∀ a, L a → L' a) (hL : ∀ x, s.Has x → L x) :
    Follows m0 L L' (cborWriteStringP type s)
      (if (s.value m0).size > 0 ∧ (s.value m0).buffer = none then cborWriteNull else do streamPrepend (s.value m0).buffer (s.value m0).size; cborWriteHeader type (s.value m0).size) := by
  obtain ⟨size, b⟩ := s
  unfold cborWriteStringP
  have hb : ((RSlice.value m0 ⟨size, b⟩).buffer = none) ↔ b = none := by cases b <;> simp [RSlice.value]
  simp only [hb]
  exact Follows.ite _ (fun _ => follows_cborHeader _ _) fun _ => (follows_prepend b size hsub fun x hx a ha => hL a ⟨x, hx, ha⟩).bind fun _ => follows_cborHeader _ _

/-! ## x509.c -/

theorem follows_when (c : Bool) {p : WP Unit} {w : W Unit} (h : c = true → Follows m0 L L' p w) : Follows m0 L L' (whenP c p) (whenW c w) :=
  Follows.ite _ h fun _ => Follows.pure _

theorem follows_hexLoop (s : Source) (N : Nat) (hL : ∀ x, s.Has N x → L x) (hsub : ∀ a, L a → L' a) : ∀ n, n ≤ N → Follows m0 L L' (serialHexLoopP s n) (serialHexLoop (s.value m0 N) n)
  | 0, _ => Follows.pure _
  | n + 1, h =>
    (follows_read s N _ hL fun x hx => hsub x (hL x (atIdx_has s N n x (by omega) (by omega) hx))).bind fun _ => (follows_pureP _).bind fun _ => (follows_pureP _).bind fun _ =>
      (follows_local _).bind fun _ => follows_hexLoop s N hL hsub n (by omega)

theorem follows_serialHex (s : RSlice) (ti : TagInfo) (hsub : ∀ a, L a → L' a) (hL : ∀ x, s.Has x → L x) :
    Follows m0 L L' (serialHexStringP s ti) (serialHexString (some (s.value m0)) ti) := by
  refine follows_hwc _ _ _ ?_ _
  show Follows m0 L L' (serialHexContentP s) (serialHexContent _)
  obtain ⟨size, b⟩ := s
  cases b with
  | none => exact Follows.pure _
  | some x => exact follows_hexLoop x _ (fun a ha => hL a ⟨x, rfl, ha⟩) hsub _ (Nat.le_refl _)

theorem follows_rdn (r : RRdn) (hsub : ∀ a, L a → L' a) (hL : ∀ x, r.value.Has x → L x) : Follows m0 L L' (x509RdnP r) (x509Rdn (r.copy m0)) := by
  refine follows_byteCount.bind fun _ => (follows_sequence ?_ _).bind fun _ => follows_byteCount.bind fun _ => follows_header _ _ _ _
  refine (follows_pureP _).bind fun serial => Follows.bind ?_ fun _ => follows_oid _ _
  exact Follows.ite _ (fun _ => follows_serialHex _ _ hsub hL) fun _ => follows_printable (some r.value) _ hsub fun s hs x hx => hL x (by cases hs; exact hx)

theorem follows_nameLoop (l : List RRdn) (hsub : ∀ a, L a → L' a) : ∀ k, (∀ r ∈ l.take k, ∀ x, r.value.Has x → L x) → Follows m0 L L' (nameLoopP l k) (nameLoop (l.map (RRdn.copy m0)) k)
  | 0, _ => Follows.pure _
  | k + 1, h => by
    have hx := follows_element (m0 := m0) (L := L) (L' := L') l id (RRdn.copy m0) k (f := fun rdn => do x509RdnP rdn; nameLoopP l k) (g := fun rdn => do x509Rdn rdn; nameLoop (l.map (RRdn.copy m0)) k)
      fun r hr => (follows_rdn r hsub (h r (List.mem_of_getElem? (i := k) (by rw [List.getElem?_take, if_pos (by omega)]; exact hr)))).bind fun _ =>
        follows_nameLoop l hsub k fun r hr => h r (List.mem_of_mem_take (i := k) (by rw [List.take_take, Nat.min_eq_left (by omega)]; exact hr))
    rw [List.map_id] at hx
    exact hx

theorem follows_name (n : Option RName) (hsub : ∀ a, L a → L' a) (hL : ∀ r, n = some r → ∀ x, r.Has x → L x) : Follows m0 L L' (x509NameP n) (x509Name (n.map (RName.value m0))) := by
  refine follows_sequence ?_ _
  show Follows m0 L L' (nameContentP n) (nameContent _)
  cases n with
  | none => exact follows_null _
  | some n =>
    refine Follows.ite _ (fun _ => follows_null _) fun _ => ?_
    have h := follows_nameLoop (m0 := m0) n.elements.toList hsub n.elementCount.toNat fun r hr x hx => hL n rfl x ⟨r, hr, hx⟩
    rw [← Vector.toList_map] at h
    exact h

variable {κ : Type} {fp : κ → WP Unit} {fw : κ → W Unit} {K K' : κ → Addr → Prop}

theorem follows_extensionItem (e : RExtension κ) (h : ∀ c, e.contentCb = some c → Follows m0 L L' (fp c) (fw c)) :
    Follows m0 L L' (extensionItemP (e.map fp)) (extensionItem (e.map fw).value) := by
  refine follows_byteCount.bind fun _ => (follows_call ?_).bind fun _ => follows_byteCount.bind fun _ => (follows_header _ _ _ _).bind fun _ =>
    (follows_when _ fun _ => follows_boolean _ _).bind fun _ => (follows_oid _ _).bind fun _ => follows_byteCount.bind fun _ => follows_header _ _ _ _
  obtain ⟨oid, crit, cb⟩ := e
  cases cb with
  | none => trivial
  | some c => exact h c rfl

theorem follows_extensionLoop (l : List (RExtension κ)) : ∀ k, (∀ e ∈ l.take k, ∀ c, e.contentCb = some c → Follows m0 L L' (fp c) (fw c)) →
    Follows m0 L L' (extensionLoopP (l.map (RExtension.map fp)) k) (extensionLoop (l.map fun e => (e.map fw).value) k)
  | 0, _ => Follows.pure _
  | k + 1, h =>
    follows_element l _ _ k fun e he => (follows_extensionItem e (h e (List.mem_of_getElem? (i := k) (by rw [List.getElem?_take, if_pos (by omega)]; exact he)))).bind fun _ =>
      follows_extensionLoop l k fun r hr => h r (List.mem_of_mem_take (i := k) (by rw [List.take_take, Nat.min_eq_left (by omega)]; exact hr))

theorem follows_extension (e : Option (RExtensions κ)) (h : ∀ x, e = some x → ∀ l, x.extensions = some l → ∀ y ∈ l.take x.extensionsCount.toNat, ∀ c, y.contentCb = some c → Follows m0 L L' (fp c) (fw c)) :
    Follows m0 L L' (x509ExtensionP (e.map (RExtensions.map fp))) (x509Extension (e.map fun e => (e.map fw).value)) := by
  cases e with
  | none => exact Follows.pure _
  | some e =>
    obtain ⟨count, l⟩ := e
    cases l with
    | none =>
      have h1 : x509ExtensionP (Option.map (RExtensions.map fp) (some ⟨count, none⟩)) = Pure.pure () := by simp [x509ExtensionP, RExtensions.map]
      have h2 : x509Extension (Option.map (fun e => (RExtensions.map fw e).value) (some ⟨count, none⟩)) = Pure.pure () := by simp [x509Extension, RExtensions.map, RExtensions.value]
      rw [h1, h2]
      exact Follows.pure _
    | some l =>
      refine Follows.ite _ (fun _ => Follows.pure _) fun _ => follows_sequence ?_ _
      have hl := follows_extensionLoop (m0 := m0) (L := L) (L' := L') (fp := fp) (fw := fw) l count.toNat (h _ rfl l rfl)
      show Follows m0 L L' (extensionLoopP (l.map (RExtension.map fp)) count.toNat) (extensionLoop ((l.map (RExtension.map fw)).map RExtension.value) count.toNat)
      rw [List.map_map]
      exact hl

theorem follows_basicConstraints (fr : Frame) (c : Option BasicConstraints) : Follows m0 L L' (basicConstraintsContentP fr c) (basicConstraintsContent fr c) := by
  cases c with
  | none => exact Follows.pure _
  | some bc =>
    refine follows_byteCount.bind fun _ => Follows.bind ?_ fun _ => follows_byteCount.bind fun _ => follows_header _ _ _ _
    exact Follows.ite _ (fun _ => (follows_when _ fun _ => follows_uint64 _ _ _).bind fun _ => follows_boolean _ _) fun _ => Follows.pure _

theorem follows_keyUsage (c : Option KeyUsage) (hsub : ∀ a, L a → L' a) : Follows m0 L L' (keyUsageContentP c) (keyUsageContent c) := by
  cases c with
  | none => exact Follows.pure _
  | some ku => exact follows_constBits _ _ _ hsub

theorem follows_algorithm (alg : AlgorithmIdentifier) : Follows m0 L L' (x509AlgorithmIdentifierP alg) (x509AlgorithmIdentifier (some alg)) := by
  refine follows_sequence ?_ _
  refine Follows.bind ?_ fun _ => follows_oid _ _
  exact Follows.ite _ (fun _ => follows_null _) fun _ => Follows.ite _ (fun _ => follows_oid _ _) fun _ => Follows.pure _

theorem follows_publicKeyInfo (i : RPublicKeyInfo) (hsub : ∀ a, L a → L' a) (hL : ∀ x, BitsHave i.publicKey i.publicKeyBits x → L x) :
    Follows m0 L L' (x509PublicKeyInfoP i) (x509PublicKeyInfo (some (i.value m0))) := by
  refine follows_sequence ?_ _
  exact (follows_bitstring _ _ _ hsub hL).bind fun _ => follows_algorithm _

theorem follows_validTime (s : RSlice) (d : Slice) (hsub : ∀ a, L a → L' a) (hL : ∀ x, s.Has x → L x) :
    Follows m0 L L' (asn1GeneralizedTimeP (some (if s.buffer ≠ none then s else constSlice d)) tagInfoNoOverride)
      (asn1GeneralizedTime (some (if (s.value m0).buffer ≠ none then s.value m0 else d)) tagInfoNoOverride) := by
  have hb : ((s.value m0).buffer ≠ none) ↔ s.buffer ≠ none := by
    obtain ⟨size, b⟩ := s
    cases b <;> simp [RSlice.value]
  by_cases h : s.buffer ≠ none
  · rw [if_pos h, if_pos (hb.2 h)]
    exact follows_time (some s) _ hsub fun r hr x hx => hL x (by cases hr; exact hx)
  · rw [if_neg h, if_neg (fun x => h (hb.1 x))]
    have h' := follows_time (m0 := m0) (L := L) (L' := L') (some (constSlice d)) tagInfoNoOverride hsub fun r hr x ⟨s, h1, h2⟩ => by
      cases hr
      obtain ⟨size, b⟩ := d
      cases b with
      | none => cases h1
      | some p => cases h1; exact h2.elim
    have he : (constSlice d).value m0 = d := by
      obtain ⟨size, b⟩ := d
      cases b <;> rfl
    simp only [Option.map_some, he] at h'
    exact h'

theorem follows_validity (v : RValidity) (hsub : ∀ a, L a → L' a) (hL : ∀ x, v.Has x → L x) : Follows m0 L L' (x509ValidityP v) (x509Validity (some (v.value m0))) := by
  refine follows_sequence ?_ _
  exact (follows_validTime v.notAfter _ hsub fun x hx => hL x (.inr hx)).bind fun _ => follows_validTime v.notBefore _ hsub fun x hx => hL x (.inl hx)

theorem follows_tbs (fr : Frame) (t : Option (RTbs κ)) (hsub : ∀ a, L a → L' a) (hL : ∀ r, t = some r → ∀ x, r.Has K RSlice.Has x → L x) (hN : ∀ r, t = some r → ∀ x, r.Has K' RSlice.Near x → L' x)
    (hK : ∀ c, (∀ a, K c a → L a) → (∀ a, K' c a → L' a) → Follows m0 L L' (fp c) (fw c)) :
    Follows m0 L L' (x509CertTbsP fr (t.map (RTbs.map fp))) (x509CertTbs fr (t.map fun t => (t.map fw).value m0)) := by
  refine follows_sequence ?_ _
  show Follows m0 L L' (certTbsContentP fr _) (certTbsContent fr _)
  cases t with
  | none => exact Follows.pure _
  | some t =>
    have hL := hL t rfl
    have hN := hN t rfl
    refine (follows_extension (some t.extensions) ?_).bind fun _ => (follows_publicKeyInfo t.subjectPublicKeyInfo hsub fun x hx => hL x (.inr (.inr (.inr (.inr (.inl hx)))))).bind fun _ =>
      (follows_name (some t.subjectName) hsub fun r hr x hx => hL x (by cases hr; exact .inr (.inr (.inr (.inl hx))))).bind fun _ =>
      (follows_validity t.validity hsub fun x hx => hL x (.inr (.inr (.inl hx)))).bind fun _ =>
      (follows_name (some t.issuerName) hsub fun r hr x hx => hL x (by cases hr; exact .inr (.inl hx))).bind fun _ => (follows_algorithm _).bind fun _ => Follows.bind ?_ fun _ => follows_local _
    · intro x hx l hl y hy c hc
      cases hx
      exact hK c (fun a ha => hL a (.inr (.inr (.inr (.inr (.inr ⟨l, hl, y, hy, c, hc, ha⟩)))))) fun a ha => hN a (.inr (.inr (.inr (.inr (.inr ⟨l, hl, y, hy, c, hc, ha⟩)))))
    · exact Follows.ite _ (fun _ => follows_uint64 _ _ _) fun _ => follows_integer _ _ _ _ (fun x hx => hL x (.inl hx)) fun x hx => hN x (.inl hx)

theorem follows_cert (fr : Frame) (c : Option (RX509 κ)) (hsub : ∀ a, L a → L' a) (hL : ∀ r, c = some r → ∀ x, r.Has K RSlice.Has x → L x) (hN : ∀ r, c = some r → ∀ x, r.Has K' RSlice.Near x → L' x)
    (hK : ∀ c, (∀ a, K c a → L a) → (∀ a, K' c a → L' a) → Follows m0 L L' (fp c) (fw c)) :
    Follows m0 L L' (x509CertP fr (c.map (RX509.map fp))) (x509Cert fr (c.map fun c => (c.map fw).value m0)) := by
  refine follows_sequence ?_ _
  show Follows m0 L L' (certContentP fr _) (certContent fr _)
  cases c with
  | none => exact Follows.pure _
  | some c =>
    refine (follows_bitstring _ _ _ hsub fun x hx => hL c rfl x (.inr hx)).bind fun _ => (follows_algorithm _).bind fun _ => ?_
    have h := follows_tbs (m0 := m0) (L := L) (L' := L') (fp := fp) (fw := fw) (K := K) (K' := K') fr c.tbs hsub (fun r hr x hx => hL c rfl x (.inl ⟨r, hr, hx⟩)) (fun r hr x hx => hN c rfl x (.inl ⟨r, hr, hx⟩)) hK
    show Follows m0 L L' (x509CertTbsP fr (c.tbs.map (RTbs.map fp))) (x509CertTbs fr ((c.tbs.map (RTbs.map fw)).map (RTbs.value m0)))
    rw [Option.map_map]
    exact h

/-! ## x509_ext_*.c -/

theorem value_isSome (s : RSlice) : (s.value m0).buffer.isSome = s.buffer.isSome := by
  obtain ⟨size, b⟩ := s
  cases b <;> rfl

theorem follows_optOctets (s : RSlice) (ti : TagInfo) (hsub : ∀ a, L a → L' a) (hL : ∀ x, s.Has x → L x) :
    Follows m0 L L' (whenP s.buffer.isSome (asn1OctetStringP (some s) ti)) (whenW (s.value m0).buffer.isSome (asn1OctetString (some (s.value m0)) ti)) := by
  rw [value_isSome]
  exact follows_when _ fun _ => follows_octets s ti hsub hL

theorem follows_optUtf8 (s : RSlice) (ti : TagInfo) (hsub : ∀ a, L a → L' a) (hL : ∀ x, s.Has x → L x) :
    Follows m0 L L' (whenP s.buffer.isSome (asn1Utf8StringP (some s) ti)) (whenW (s.value m0).buffer.isSome (asn1Utf8String (some (s.value m0)) ti)) := by
  rw [value_isSome]
  exact follows_when _ fun _ => follows_utf8 (some s) ti hsub fun r hr x hx => hL x (by cases hr; exact hx)

theorem follows_openDice (fr : Frame) (c : Option ROpenDiceInput) (hsub : ∀ a, L a → L' a) (hL : ∀ r, c = some r → ∀ x, r.Has x → L x) :
    Follows m0 L L' (openDiceInputContentP fr c) (openDiceInputContent fr (c.map (ROpenDiceInput.value m0))) := by
  cases c with
  | none => exact Follows.pure _
  | some i =>
    have hL := hL i rfl
    refine follows_sequence ?_ _
    exact (follows_optUtf8 _ _ hsub fun x hx => hL x (.inr (.inr (.inr (.inr (.inr (.inr hx))))))).bind fun _ => (follows_uint64 _ _ _).bind fun _ =>
      (follows_optOctets _ _ hsub fun x hx => hL x (.inr (.inr (.inr (.inr (.inr (.inl hx))))))).bind fun _ =>
      (follows_optOctets _ _ hsub fun x hx => hL x (.inr (.inr (.inr (.inr (.inl hx)))))).bind fun _ =>
      (follows_optOctets _ _ hsub fun x hx => hL x (.inr (.inr (.inr (.inl hx))))).bind fun _ =>
      (follows_optOctets _ _ hsub fun x hx => hL x (.inr (.inr (.inl hx)))).bind fun _ =>
      (follows_optOctets _ _ hsub fun x hx => hL x (.inr (.inl hx))).bind fun _ =>
      follows_optOctets _ _ hsub fun x hx => hL x (.inl hx)

theorem follows_fwidLoop (l : List RFwid) (hsub : ∀ a, L a → L' a) : ∀ k, (∀ r ∈ l.take k, ∀ x, r.digest.Has x → L x) → Follows m0 L L' (fwidLoopP l k) (fwidLoop (l.map (RFwid.value m0)) k)
  | 0, _ => Follows.pure _
  | k + 1, h => by
    have hx := follows_element (m0 := m0) (L := L) (L' := L') l id (RFwid.value m0) k (f := fun f => do asn1SequenceP (some (fwidContentP f)) tagInfoNoOverride; fwidLoopP l k)
      (g := fun f => do asn1Sequence (some (fwidContent f)) tagInfoNoOverride; fwidLoop (l.map (RFwid.value m0)) k)
      fun r hr => (follows_sequence ((follows_octets r.digest _ hsub (h r (List.mem_of_getElem? (i := k) (by rw [List.getElem?_take, if_pos (by omega)]; exact hr)))).bind fun _ => follows_oid _ _).opt _).bind fun _ =>
        follows_fwidLoop l hsub k fun r hr => h r (List.mem_of_mem_take (i := k) (by rw [List.take_take, Nat.min_eq_left (by omega)]; exact hr))
    rw [List.map_id] at hx
    exact hx

theorem follows_tcbInfo (fr : Frame) (c : Option RTcbInfo) (hsub : ∀ a, L a → L' a) (hL : ∀ r, c = some r → ∀ x, r.Has x → L x) :
    Follows m0 L L' (tcbInfoContentP fr c) (tcbInfoContent fr (c.map (RTcbInfo.value m0))) := by
  cases c with
  | none => exact Follows.pure _
  | some t =>
    have hL := hL t rfl
    refine follows_sequence ?_ _
    refine (follows_constBits _ _ _ hsub).bind fun _ => (follows_optOctets _ _ hsub fun x hx => hL x (.inr (.inr (.inr (.inr (.inr hx)))))).bind fun _ =>
      (follows_optOctets _ _ hsub fun x hx => hL x (.inr (.inr (.inr (.inr (.inl hx)))))).bind fun _ => (follows_constBits _ _ _ hsub).bind fun _ => Follows.bind ?_ fun _ =>
      (follows_int64 _ _ _).bind fun _ => (follows_int64 _ _ _).bind fun _ => (follows_int64 _ _ _).bind fun _ => (follows_optUtf8 _ _ hsub fun x hx => hL x (.inr (.inr (.inl hx)))).bind fun _ =>
      (follows_optUtf8 _ _ hsub fun x hx => hL x (.inr (.inl hx))).bind fun _ => follows_optUtf8 _ _ hsub fun x hx => hL x (.inl hx)
    unfold fwidsFieldP fwidsField RTcbInfo.value
    simp only
    cases hf : t.fwids with
    | none => exact Follows.pure _
    | some l => exact follows_sequence (follows_fwidLoop l hsub _ fun r hr x hx => hL x (.inr (.inr (.inr (.inl ⟨l, hf, r, hr, hx⟩))))).opt _

theorem follows_multiLoop (fr : Frame) (l : List RTcbInfo) (hsub : ∀ a, L a → L' a) : ∀ k, (∀ r ∈ l.take k, ∀ x, r.Has x → L x) →
    Follows m0 L L' (multiTcbInfoLoopP fr l k) (multiTcbInfoLoop fr (l.map (RTcbInfo.value m0)) k)
  | 0, _ => Follows.pure _
  | k + 1, h => by
    have hx := follows_element (m0 := m0) (L := L) (L' := L') l id (RTcbInfo.value m0) k (f := fun t => do tcbInfoContentP fr (some t); multiTcbInfoLoopP fr l k)
      (g := fun t => do tcbInfoContent fr (some t); multiTcbInfoLoop fr (l.map (RTcbInfo.value m0)) k)
      fun r hr => (follows_tcbInfo fr (some r) hsub fun y hy => by cases hy; exact h r (List.mem_of_getElem? (i := k) (by rw [List.getElem?_take, if_pos (by omega)]; exact hr))).bind fun _ =>
        follows_multiLoop fr l hsub k fun r hr => h r (List.mem_of_mem_take (i := k) (by rw [List.take_take, Nat.min_eq_left (by omega)]; exact hr))
    rw [List.map_id] at hx
    exact hx

theorem follows_multi (fr : Frame) (c : Option RMultiTcbInfo) (hsub : ∀ a, L a → L' a) (hL : ∀ r, c = some r → ∀ x, r.Has x → L x) :
    Follows m0 L L' (multiTcbInfoContentP fr c) (multiTcbInfoContent fr (c.map (RMultiTcbInfo.value m0))) := by
  cases c with
  | none => exact Follows.pure _
  | some i =>
    have hL := hL i rfl
    refine follows_sequence ?_ _
    show Follows m0 L L' (multiTcbInfoSequenceP fr i) (multiTcbInfoSequence fr _)
    obtain ⟨l, count⟩ := i
    cases l with
    | none => exact Follows.pure _
    | some l => exact follows_multiLoop fr l hsub _ fun r hr x hx => hL x ⟨l, rfl, r, hr, hx⟩

theorem follows_oneSlice (c : Option RSlice) (hsub : ∀ a, L a → L' a) (hL : ∀ r, c = some r → ∀ x, r.Has x → L x) :
    Follows m0 L L' (oneSliceContentP c) (ueidContent (c.map (RSlice.value m0))) := by
  cases c with
  | none => exact Follows.pure _
  | some s => exact follows_sequence (follows_octets s _ hsub (hL s rfl)).opt _

theorem freshness_eq_ueid (c : Option Slice) : freshnessContent c = ueidContent c := by cases c <;> rfl

/-! ## All functions -/

theorem follows_rcall (c : RCall κ) (hsub : ∀ a, L a → L' a) (hL : ∀ x, c.Has RSlice.Has K x → L x) (hN : ∀ x, c.Has RSlice.Near K' x → L' x)
    (hK : ∀ c, (∀ a, K c a → L a) → (∀ a, K' c a → L' a) → Follows m0 L L' (fp c) (fw c)) : Follows m0 L L' (c.prog fp) (c.value m0 fw).exec := by
  have hopt : ∀ cb : Option κ, (∀ c, cb = some c → ∀ x, K c x → L x) → (∀ c, cb = some c → ∀ x, K' c x → L' x) → FollowsOpt m0 L L' (cb.map fp) (cb.map fw) := by
    intro cb h h'
    cases cb with
    | none => trivial
    | some c => exact hK c (h c rfl) (h' c rfl)
  cases c with
  | streamPrepend src len => exact follows_prepend _ _ hsub fun x hx a ha => hL a ⟨x, hx, ha⟩
  | streamPut c => exact follows_local _
  | base128Int n => exact follows_base128 _
  | header class_ constructed tag len => exact follows_header _ _ _ _
  | null ti => exact follows_null _
  | objectIdentifier oid ti => exact follows_oid _ _
  | integer n le tc ti => exact follows_integer _ _ _ _ hL hN
  | uint64 fr n ti => exact follows_uint64 _ _ _
  | int64 fr n ti => exact follows_int64 _ _ _
  | bitstring b bits ti => exact follows_bitstring _ _ _ hsub hL
  | octetstring s ti => exact follows_stringish _ _ _ hsub fun r hr x hx => hL x ⟨r, hr, hx⟩
  | utf8String s ti => exact follows_utf8 _ _ hsub fun r hr x hx => hL x ⟨r, hr, hx⟩
  | printablestring s ti => exact follows_printable _ _ hsub fun r hr x hx => hL x ⟨r, hr, hx⟩
  | generalizedTime s ti => exact follows_time _ _ hsub fun r hr x hx => hL x ⟨r, hr, hx⟩
  | headerWithContent cls k tag cb ti => exact follows_hwc _ _ _ (hopt cb (fun c hc x hx => hL x ⟨c, hc, hx⟩) fun c hc x hx => hN x ⟨c, hc, hx⟩) _
  | sequence cb ti => exact follows_sequence (hopt cb (fun c hc x hx => hL x ⟨c, hc, hx⟩) fun c hc x hx => hN x ⟨c, hc, hx⟩) _
  | boolean v ti => exact follows_boolean _ _
  | cborHeader type n => exact follows_cborHeader _ _
  | cborNull => exact follows_cborHeader _ _
  | cborBool b => exact follows_cborHeader _ _
  | cborTag tag => exact follows_cborHeader _ _
  | cborUint n => exact follows_cborHeader _ _
  | cborInt n => exact follows_cborInt _
  | cborByteString s => exact follows_cborString _ _ hsub hL
  | cborTextString s => exact follows_cborString _ _ hsub hL
  | cborArrayHeader n => exact follows_cborHeader _ _
  | cborMapHeader n => exact follows_cborHeader _ _
  | name n => exact follows_name _ hsub fun r hr x hx => hL x ⟨r, hr, hx⟩
  | extension e => exact follows_extension e fun x hx l hl y hy c hc => hK c (fun a ha => hL a ⟨x, hx, l, hl, y, hy, c, hc, ha⟩) fun a ha => hN a ⟨x, hx, l, hl, y, hy, c, hc, ha⟩
  | basicConstraints fr c => exact follows_basicConstraints _ _
  | keyUsage c => exact follows_keyUsage _ hsub
  | certTbs fr t => exact follows_tbs fr t hsub (fun r hr x hx => hL x ⟨r, hr, hx⟩) (fun r hr x hx => hN x ⟨r, hr, hx⟩) hK
  | cert fr c => exact follows_cert fr c hsub (fun r hr x hx => hL x ⟨r, hr, hx⟩) (fun r hr x hx => hN x ⟨r, hr, hx⟩) hK
  | openDiceInput fr c => exact follows_openDice _ _ hsub fun r hr x hx => hL x ⟨r, hr, hx⟩
  | tcbFreshness c =>
    show Follows m0 L L' (oneSliceContentP c) (freshnessContent _)
    rw [freshness_eq_ueid]
    exact follows_oneSlice _ hsub fun r hr x hx => hL x ⟨r, hr, hx⟩
  | tcbInfo fr c => exact follows_tcbInfo _ _ hsub fun r hr x hx => hL x ⟨r, hr, hx⟩
  | multiTcbInfo fr c => exact follows_multi _ _ hsub fun r hr x hx => hL x ⟨r, hr, hx⟩
  | ueid c => exact follows_oneSlice _ hsub fun r hr x hx => hL x ⟨r, hr, hx⟩

theorem follows_all (cs : List (RCall κ)) (hsub : ∀ a, L a → L' a) (hL : ∀ x, AnyHas RSlice.Has K cs x → L x) (hN : ∀ x, AnyHas RSlice.Near K' cs x → L' x)
    (hK : ∀ c, (∀ a, K c a → L a) → (∀ a, K' c a → L' a) → Follows m0 L L' (fp c) (fw c)) : Follows m0 L L' (runAll fp cs) (renderAll (cs.map (RCall.value m0 fw))) := by
  induction cs with
  | nil => exact Follows.pure _
  | cons c cs ih =>
    exact (follows_rcall c hsub (fun x hx => hL x ⟨c, List.mem_cons_self, hx⟩) (fun x hx => hN x ⟨c, List.mem_cons_self, hx⟩) hK).bind fun _ =>
      ih (fun x ⟨d, h1, h2⟩ => hL x ⟨d, List.mem_cons_of_mem _ h1, h2⟩) fun x ⟨d, h1, h2⟩ => hN x ⟨d, List.mem_cons_of_mem _ h1, h2⟩

theorem follows_content (n : Nat) : ∀ (cs : Content n), (∀ a, L a → L' a) → (∀ x, Content.Reads n cs x → L x) → (∀ x, Content.MayRead n cs x → L' x) →
    Follows m0 L L' (Content.prog n cs) (Content.value m0 n cs) := by
  induction n with
  | zero => intro cs; exact nomatch cs
  | succ n ih => intro cs hsub hL hN; exact follows_all cs hsub hL hN fun c h h' => ih c hsub h h'

end

/-! ## What is rendered may be read -/

theorem near_of_has (s : RSlice) (a : Addr) (h : s.Has a) : s.Near a := by
  obtain ⟨x, h1, h2⟩ := h
  refine ⟨x, h1, ?_⟩
  cases x with
  | const _ => exact h2
  | mem b => exact ⟨h2.1, by have := h2.2.1; omega, by have := h2.2.2; omega⟩

theorem RExtensions.Has.mono {κ : Type} {K K' : κ → Addr → Prop} (h : ∀ c a, K c a → K' c a) (e : RExtensions κ) (a : Addr) (ha : e.Has K a) : e.Has K' a := by
  obtain ⟨l, hl, y, hy, c, hc, hx⟩ := ha
  exact ⟨l, hl, y, hy, c, hc, h c a hx⟩

theorem RTbs.Has.mono {κ : Type} {K K' : κ → Addr → Prop} (h : ∀ c a, K c a → K' c a) (t : RTbs κ) (a : Addr) (ha : t.Has K RSlice.Has a) : t.Has K' RSlice.Near a := by
  rcases ha with ha | ha | ha | ha | ha | ha
  · exact .inl (near_of_has _ _ ha)
  · exact .inr (.inl ha)
  · exact .inr (.inr (.inl ha))
  · exact .inr (.inr (.inr (.inl ha)))
  · exact .inr (.inr (.inr (.inr (.inl ha))))
  · exact .inr (.inr (.inr (.inr (.inr (RExtensions.Has.mono h _ a ha)))))

theorem RX509.Has.mono {κ : Type} {K K' : κ → Addr → Prop} (h : ∀ c a, K c a → K' c a) (t : RX509 κ) (a : Addr) (ha : t.Has K RSlice.Has a) : t.Has K' RSlice.Near a := by
  rcases ha with ⟨r, h1, h2⟩ | ha
  · exact .inl ⟨r, h1, RTbs.Has.mono h r a h2⟩
  · exact .inr ha

theorem RCall.Has.mono {κ : Type} {K K' : κ → Addr → Prop} (h : ∀ c a, K c a → K' c a) (c : RCall κ) (a : Addr) (ha : c.Has RSlice.Has K a) : c.Has RSlice.Near K' a := by
  cases c with
  | integer n le tc ti => exact near_of_has _ _ ha
  | headerWithContent cls k tag cb ti => obtain ⟨c, hc, hx⟩ := ha; exact ⟨c, hc, h c a hx⟩
  | sequence cb ti => obtain ⟨c, hc, hx⟩ := ha; exact ⟨c, hc, h c a hx⟩
  | extension e => obtain ⟨c, hc, hx⟩ := ha; exact ⟨c, hc, RExtensions.Has.mono h c a hx⟩
  | certTbs fr t => obtain ⟨c, hc, hx⟩ := ha; exact ⟨c, hc, RTbs.Has.mono h c a hx⟩
  | cert fr t => obtain ⟨c, hc, hx⟩ := ha; exact ⟨c, hc, RX509.Has.mono h c a hx⟩
  | _ => exact ha

theorem mayRead_of_reads (n : Nat) : ∀ (cs : Content n) (a : Addr), Content.Reads n cs a → Content.MayRead n cs a := by
  induction n with
  | zero => intro cs; exact nomatch cs
  | succ n ih =>
    intro cs a ⟨c, h1, h2⟩
    exact ⟨c, h1, RCall.Has.mono ih c a h2⟩

end Nat20

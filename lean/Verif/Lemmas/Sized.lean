import Verif.Spec.Sized
/-!
# Lemmas for C83: simulation between the platforms
-/

namespace Nat20.Sized

variable {w : Nat}

/-- The position of the stream did not overflow. -/
def Steady (t : Option (Stream w)) : Prop := ∀ x, t = some x → x.writePositionOverflow = false

/-- The position. -/
def pos (t : Option (Stream w)) : Nat := (streamByteCount t).toNat

/-- The results of two calls; the values are related by `Q`, and by `R` as long as the position did not overflow. -/
def Out {α β : Type} (t : Option (Stream w)) (r : Except UB (α × Option (Stream w))) (r' : Except UB (β × Option Nat20.Stream)) (Q R : α → β → Prop) : Prop :=
  match r, r' with
  | .error e, .error e' => e = e'
  | .ok (a, t1), .ok (b, u1) => Corresponds t1 u1 ∧ (t1 = none → t = none) ∧ Q a b ∧ (Steady t1 → Steady t ∧ pos t ≤ pos t1 ∧ R a b)
  | _, _ => False

/-- Both functions do the same, provided that `p` holds and the position is at least `k`, unless the position overflowed before. -/
def Sim {α β : Type} (p : Prop) (k : Nat) (f : W w α) (g : Nat20.W β) (Q R : α → β → Prop) : Prop :=
  ∀ t u, Corresponds t u → (Steady t → p ∧ k ≤ pos t) → Out t (f t) (g u) Q R

abbrev Any {α β : Type} : α → β → Prop := fun _ _ => True

/-- For functions without a result. -/
abbrev Sim1 (w : Nat) (p : Prop) (k : Nat) (f : W w Unit) (g : Nat20.W Unit) : Prop := Sim p k f g Any Any

variable {k : Nat}

theorem Sim.mono {α β : Type} {p q : Prop} {f : W w α} {g : Nat20.W β} {Q Q' R S : α → β → Prop} {l : Nat} (h : Sim p l f g Q R) (hpq : q → p) (hk : l ≤ k)
    (hQ : ∀ a b, Q a b → Q' a b) (hR : ∀ a b, R a b → S a b) : Sim q k f g Q' S := by
  intro t u hc hq
  have := h t u hc (fun x => ⟨hpq (hq x).1, Nat.le_trans hk (hq x).2⟩)
  unfold Out at this ⊢
  split at this
  · exact this
  · exact ⟨this.1, this.2.1, hQ _ _ this.2.2.1, fun x => ⟨(this.2.2.2 x).1, (this.2.2.2 x).2.1, hR _ _ (this.2.2.2 x).2.2⟩⟩
  · exact this

/-- With a weaker hypothesis. -/
theorem Sim.given {α β : Type} {p q : Prop} {f : W w α} {g : Nat20.W β} {Q R : α → β → Prop} (h : Sim p k f g Q R) (hpq : q → p) : Sim q k f g Q R :=
  h.mono hpq (Nat.le_refl k) (fun _ _ => id) fun _ _ => id

theorem sim_pure {α β : Type} {p : Prop} {Q R : α → β → Prop} (a : α) (b : β) (h : Q a b) (h' : p → R a b) :
    Sim p k (Pure.pure a : W w α) (Pure.pure b : Nat20.W β) Q R :=
  fun _ _ hc hp => ⟨hc, id, h, fun x => ⟨x, Nat.le_refl _, h' (hp x).1⟩⟩

theorem sim_done {p : Prop} : Sim1 w p k (Pure.pure () : W w Unit) (Pure.pure ()) := sim_pure _ _ trivial fun _ => trivial

theorem sim_bind {α β γ δ : Type} {p : Prop} {f : W w α} {g : Nat20.W β} {Q R : α → β → Prop} {f' : α → W w γ} {g' : β → Nat20.W δ} {Q' S : γ → δ → Prop}
    (h : Sim p k f g Q R) (h' : ∀ a b, Q a b → Sim (p ∧ R a b) k (f' a) (g' b) Q' S) : Sim p k (f >>= f') (g >>= g') Q' S := by
  intro t u hc hp
  have h1 := h t u hc hp
  simp only [bind, StateT.bind, Except.bind]
  revert h1
  cases f t with
  | error e =>
    cases g u with
    | error e' => exact id
    | ok x => exact False.elim
  | ok x =>
    obtain ⟨a, t1⟩ := x
    cases g u with
    | error e' => exact False.elim
    | ok y =>
      obtain ⟨b, u1⟩ := y
      rintro ⟨hc1, hn, hq, hr⟩
      have h2 := h' a b hq t1 u1 hc1 (fun x => ⟨⟨(hp (hr x).1).1, (hr x).2.2⟩, Nat.le_trans (hp (hr x).1).2 (hr x).2.1⟩)
      simp only
      revert h2
      unfold Out
      cases f' a t1 with
      | error e => cases g' b u1 with
        | error e' => exact id
        | ok z => exact id
      | ok z => cases g' b u1 with
        | error e' => exact id
        | ok z' =>
          exact fun h2 => ⟨h2.1, fun x => hn (h2.2.1 x), h2.2.2.1, fun x =>
            have s := h2.2.2.2 x
            ⟨(hr s.1).1, Nat.le_trans (hr s.1).2.1 s.2.1, s.2.2⟩⟩

theorem sim_then {γ δ : Type} {p : Prop} {f : W w Unit} {g : Nat20.W Unit} {f' : Unit → W w γ} {g' : Unit → Nat20.W δ} {Q S : γ → δ → Prop}
    (h : Sim1 w p k f g) (h' : Sim p k (f' ()) (g' ()) Q S) : Sim p k (f >>= f') (g >>= g') Q S :=
  sim_bind h fun _ _ _ => h'.given And.left

/-- A value that does not depend on the platform. -/
theorem sim_same {α γ δ : Type} {p : Prop} {f : W w α} {g : Nat20.W α} {f' : α → W w γ} {g' : α → Nat20.W δ} {Q S : γ → δ → Prop}
    (h : Sim p k f g Eq Any) (h' : ∀ a, Sim p k (f' a) (g' a) Q S) : Sim p k (f >>= f') (g >>= g') Q S :=
  sim_bind h fun a b e => by subst e; exact (h' a).given And.left

theorem sim_lift {α : Type} {p : Prop} (x : Except UB α) : Sim p k (liftM x : W w α) (liftM x : Nat20.W α) Eq Any := by
  intro t u hc hp
  cases x with
  | error e => exact rfl
  | ok a => exact ⟨hc, id, rfl, fun x => ⟨x, Nat.le_refl _, trivial⟩⟩

theorem sim_read {α γ δ : Type} {p : Prop} (x : Except UB α) {f' : α → W w γ} {g' : α → Nat20.W δ} {Q S : γ → δ → Prop}
    (h : ∀ a, Sim p k (f' a) (g' a) Q S) : Sim p k ((liftM x : W w α) >>= f') ((liftM x : Nat20.W α) >>= g') Q S :=
  sim_same (sim_lift x) h

theorem sim_error {p : Prop} (e : UB) : Sim1 w p k (liftM (Except.error e : Except UB Unit) : W w Unit) (liftM (Except.error e : Except UB Unit) : Nat20.W Unit) :=
  (sim_lift _).mono id (Nat.le_refl k) (fun _ _ _ => trivial) fun _ _ => id

theorem sim_ite {α β : Type} {p c : Prop} [Decidable c] {f f' : W w α} {g g' : Nat20.W β} {Q R : α → β → Prop} (h : c → Sim p k f g Q R) (h' : ¬ c → Sim p k f' g' Q R) :
    Sim p k (if c then f else f') (if c then g else g') Q R := by
  split
  · exact h ‹_›
  · exact h' ‹_›

/-- Conditions which are equivalent. -/
theorem sim_iff {α β : Type} {p c c' : Prop} [Decidable c] [Decidable c'] {f f' : W w α} {g g' : Nat20.W β} {Q R : α → β → Prop} (hc : c ↔ c')
    (h : c → Sim p k f g Q R) (h' : ¬ c → Sim p k f' g' Q R) : Sim p k (if c then f else f') (if c' then g else g') Q R := by
  by_cases hh : c
  · rw [if_pos hh, if_pos (hc.1 hh)]
    exact h hh
  · rw [if_neg hh, if_neg fun x => hh (hc.2 x)]
    exact h' hh

theorem Sim1.same {f : W w Unit} {g : Nat20.W Unit} (h : Sim1 w True 0 f g) : SameRendering f g := by
  constructor
  · intro t u hc
    have h1 := h t u hc fun _ => ⟨trivial, Nat.zero_le _⟩
    revert h1
    unfold SameOutcome Out
    cases f t with
    | error e => cases g u <;> exact id
    | ok x => cases g u with
      | error e => exact id
      | ok y => exact fun h => h.1
  · intro t u hc r e
    have h1 := h (some t) u hc fun _ => ⟨trivial, Nat.zero_le _⟩
    rw [e] at h1
    revert h1
    unfold Out
    cases g u with
    | error e => exact False.elim
    | ok y =>
      rintro ⟨_, hn, _, h2⟩
      cases r with
      | none => cases hn rfl
      | some x =>
        refine ⟨x, rfl, fun hx => ?_⟩
        have h3 := h2 (fun y hy => by cases hy; exact hx)
        exact ⟨h3.1 t rfl, h3.2.1⟩

theorem SameRendering.sim {p : Prop} {f : W w Unit} {g : Nat20.W Unit} (h : SameRendering f g) : Sim1 w p k f g := by
  intro t u hc _
  have h1 := h.1 t u hc
  have h2 : ∀ r, f t = .ok ((), r) → (r = none → t = none) ∧ (Steady r → Steady t ∧ pos t ≤ pos r) := by
    intro r e
    cases t with
    | none => exact ⟨fun _ => rfl, fun _ => ⟨fun x hx => (by cases hx), by simp [pos, streamByteCount]⟩⟩
    | some x =>
      obtain ⟨y, rfl, hy⟩ := h.2 x u hc r e
      refine ⟨fun h => (by cases h), fun hs => ?_⟩
      have h3 := hy (hs y rfl)
      exact ⟨fun z hz => (by cases hz; exact h3.1), h3.2⟩
  revert h1
  unfold SameOutcome Out
  cases hf : f t with
  | error e => cases g u <;> exact id
  | ok x => cases g u with
    | error e => exact id
    | ok y =>
      have h3 := h2 _ hf
      exact fun h => ⟨h, h3.1, trivial, fun x => ⟨(h3.2 x).1, (h3.2 x).2, trivial⟩⟩

/-! ## Numbers -/

theorem toUInt64_toNat (hw : w ≤ 64) (n : BitVec w) : (toUInt64 n).toNat = n.toNat := by
  unfold toUInt64
  rw [UInt64.toNat_ofNat']
  exact Nat.mod_eq_of_lt (Nat.lt_of_lt_of_le n.isLt (Nat.pow_le_pow_right (by decide) hw))

theorem ofNat_toNat {n : Nat} (hw : 16 ≤ w) (h : n < 65536) : (BitVec.ofNat w n).toNat = n := by
  rw [BitVec.toNat_ofNat]
  exact Nat.mod_eq_of_lt (Nat.lt_of_lt_of_le (show n < 2 ^ 16 from h) (Nat.pow_le_pow_right (by decide) hw))

/-! ## The stream -/

theorem sim_memcpy (dst : Option Bytes) (src : Option Ptr) (off len : BitVec w) (off' len' : UInt64) (h : off.toNat = off'.toNat) (h' : len.toNat = len'.toNat) :
    memcpy dst off src len = Nat20.memcpy dst off' src len' := by
  unfold memcpy Nat20.memcpy
  rw [h, h']
  cases dst <;> cases src <;> rfl

/-- The position of the stream of the wide platform is one that does not fit. -/
def Past (w : Nat) (u : Nat20.Stream) : Prop := u.writePositionOverflow = true ∨ 2 ^ w ≤ u.writePosition.toNat

theorem prepend_past (src : Option Ptr) (len : UInt64) (u : Nat20.Stream) (h : Past w u) (hb : u.bufferOverflow = true) :
    ∃ u1, Nat20.streamPrepend src len (some u) = .ok ((), some u1) ∧ u1.begin_ = u.begin_ ∧ u1.size = u.size ∧ u1.bufferOverflow = true ∧ Past w u1 := by
  unfold Nat20.streamPrepend
  simp only [hb, Bool.or_true, Bool.true_or, if_true]
  refine ⟨_, rfl, rfl, rfl, rfl, ?_⟩
  unfold Past at h ⊢
  simp only [Bool.or_eq_true, decide_eq_true_eq]
  rcases h with h | h
  · exact .inl (.inl h)
  · by_cases hlt : u.writePosition + len < u.writePosition
    · exact .inl (.inr hlt)
    · right
      have : u.writePosition.toNat ≤ (u.writePosition + len).toNat := by
        have := UInt64.not_lt.1 hlt
        exact UInt64.le_iff_toNat_le.1 this
      omega

theorem prepend_overflowed (src : Option Ptr) (len : BitVec w) (t : Stream w) (h : t.writePositionOverflow = true) :
    ∃ t1, streamPrepend src len (some t) = .ok ((), some t1) ∧ t1.begin_ = t.begin_ ∧ t1.size = t.size ∧ t1.bufferOverflow = true ∧ t1.writePositionOverflow = true := by
  unfold streamPrepend
  simp only [h, Bool.true_or, if_true]
  exact ⟨_, rfl, rfl, rfl, rfl, rfl⟩

theorem sim_prepend (hw : w ≤ 64) (src src' : Option Ptr) (len : BitVec w) (len' : UInt64) :
    Sim1 w (src = src' ∧ len.toNat = len'.toNat) k (streamPrepend src len) (Nat20.streamPrepend src' len') := by
  intro t u hc hp
  match t, u, hc with
  | none, none, _ => exact ⟨trivial, id, trivial, fun x => ⟨x, Nat.le_refl _, trivial⟩⟩
  | some t, some u, ⟨h1, h2, h3, h4, h5, h6⟩ =>
    cases ht : t.writePositionOverflow with
    | true =>
      obtain ⟨t1, e1, a1, a2, a3, a4⟩ := prepend_overflowed src len t ht
      obtain ⟨u1, e2, b1, b2, b3, b4⟩ := prepend_past src' len' u (h4.1 ht) (h3 ▸ h6 ht)
      rw [e1, e2]
      refine ⟨⟨by rw [a1, b1, h1], by rw [a2, b2, h2], by rw [a3, b3], by rw [a4]; exact ⟨fun _ => b4, fun _ => rfl⟩, fun h => (by rw [a4] at h; cases h), fun _ => a3⟩,
        fun h => (by cases h), trivial, fun h => absurd (h t1 rfl) (by rw [a4]; decide)⟩
    | false =>
      obtain ⟨⟨rfl, hl⟩, hk⟩ := hp (fun x hx => by cases hx; exact ht)
      have hpos := h5 ht
      have hu : u.writePositionOverflow = false := by
        cases h : u.writePositionOverflow with
        | false => rfl
        | true => rw [h4.2 (.inl h)] at ht; cases ht
      have hlt := t.writePosition.isLt
      have hll := len.isLt
      have hsz := t.size.isLt
      have hpw : 2 ^ w ≤ 2 ^ 64 := Nat.pow_le_pow_right (by decide) hw
      have hp64 : (2 : Nat) ^ 64 = 18446744073709551616 := by decide
      have es : (t.writePosition + len).toNat = (t.writePosition.toNat + len.toNat) % 2 ^ w := BitVec.toNat_add _ _
      have eu : (u.writePosition + len').toNat = (u.writePosition.toNat + len'.toNat) % 2 ^ 64 := UInt64.toNat_add _ _
      have cs : decide (t.writePosition + len < t.writePosition) = decide (2 ^ w ≤ t.writePosition.toNat + len.toNat) := by
        rw [decide_eq_decide, BitVec.lt_def, es]
        by_cases hfit : t.writePosition.toNat + len.toNat < 2 ^ w
        · rw [Nat.mod_eq_of_lt hfit]; omega
        · rw [Nat.mod_eq_sub_mod (by omega), Nat.mod_eq_of_lt (by omega)]; omega
      have cu : decide (u.writePosition + len' < u.writePosition) = decide (2 ^ 64 ≤ u.writePosition.toNat + len'.toNat) := by
        rw [decide_eq_decide, UInt64.lt_iff_toNat_lt, eu]
        by_cases hfit : u.writePosition.toNat + len'.toNat < 2 ^ 64
        · rw [Nat.mod_eq_of_lt hfit]; omega
        · rw [Nat.mod_eq_sub_mod (by omega), Nat.mod_eq_of_lt (by omega)]; omega
      have ds : decide (t.size < t.writePosition + len) = decide (t.size.toNat < (t.writePosition + len).toNat) := by rw [decide_eq_decide, BitVec.lt_def]
      have du : decide (u.size < u.writePosition + len') = decide (u.size.toNat < (u.writePosition + len').toNat) := by rw [decide_eq_decide, UInt64.lt_iff_toNat_lt]
      unfold streamPrepend Nat20.streamPrepend
      simp only [ht, hu, Bool.false_or, cs, cu, ds, du, es, eu]
      by_cases hfit : t.writePosition.toNat + len.toNat < 2 ^ w
      · -- the position fits
        have e1 : decide (2 ^ w ≤ t.writePosition.toNat + len.toNat) = false := by rw [decide_eq_false_iff_not]; omega
        have e2 : decide (2 ^ 64 ≤ u.writePosition.toNat + len'.toNat) = false := by rw [decide_eq_false_iff_not]; omega
        have m1 : (t.writePosition.toNat + len.toNat) % 2 ^ w = t.writePosition.toNat + len.toNat := Nat.mod_eq_of_lt hfit
        have m2 : (u.writePosition.toNat + len'.toNat) % 2 ^ 64 = t.writePosition.toNat + len.toNat := by rw [Nat.mod_eq_of_lt (by omega)]; omega
        simp only [e1, e2, Bool.false_or, m1, m2, h2, h3]
        have hcorr : ∀ (m : Option Bytes) (b : Bool),
            Corresponds (some { t with begin_ := m, writePosition := t.writePosition + len, writePositionOverflow := false, bufferOverflow := b })
              (some { u with begin_ := m, writePosition := u.writePosition + len', writePositionOverflow := false, bufferOverflow := b }) := by
          intro m b
          refine ⟨rfl, h2, rfl, ?_, fun _ => by simp only; rw [es, eu, m1, m2], fun h => by cases h⟩
          simp only [Bool.false_eq_true, false_or, false_iff]
          rw [eu, m2]
          omega
        have hst : Steady (some t) := fun x hx => by cases hx; exact ht
        have hmono : t.writePosition.toNat ≤ (t.writePosition + len).toNat := by rw [es, m1]; omega
        cases hb : (u.bufferOverflow || decide (u.size.toNat < t.writePosition.toNat + len.toNat)) with
        | true =>
          simp only [if_true]
          refine ⟨?_, fun h => (by cases h), trivial, fun _ => ⟨hst, hmono, trivial⟩⟩
          have := hcorr t.begin_ true
          rw [h1] at this ⊢
          exact this
        | false =>
          simp only [Bool.false_eq_true, if_false]
          have hle : t.writePosition.toNat + len.toNat ≤ u.size.toNat := by
            rw [Bool.or_eq_false_iff, decide_eq_false_iff_not] at hb
            omega
          have hoff : (t.size - (t.writePosition + len)).toNat = (u.size - (u.writePosition + len')).toNat := by
            rw [BitVec.toNat_sub_of_le (by rw [BitVec.le_def, es, m1]; omega), UInt64.toNat_sub_of_le _ _ (by rw [UInt64.le_iff_toNat_le, eu, m2]; exact hle), es, m1, eu, m2, h2]
          rw [sim_memcpy t.begin_ src _ len _ len' hoff hl, h1]
          cases Nat20.memcpy u.begin_ (u.size - (u.writePosition + len')) src len' with
          | error e => exact rfl
          | ok m =>
            exact ⟨hcorr (some m) false, fun h => (by cases h), trivial, fun _ => ⟨hst, hmono, trivial⟩⟩
      · -- the position does not fit
        have e1 : decide (2 ^ w ≤ t.writePosition.toNat + len.toNat) = true := by rw [decide_eq_true_eq]; omega
        have eb : (decide (2 ^ 64 ≤ u.writePosition.toNat + len'.toNat) || u.bufferOverflow || decide (u.size.toNat < (u.writePosition.toNat + len'.toNat) % 2 ^ 64)) = true := by
          rw [Bool.or_eq_true, decide_eq_true_eq]
          by_cases h64 : 2 ^ 64 ≤ u.writePosition.toNat + len'.toNat
          · left; rw [Bool.or_eq_true, decide_eq_true_eq]; exact .inl h64
          · right; rw [Nat.mod_eq_of_lt (by omega)]; omega
        simp only [e1, eb, Bool.true_or, if_true]
        refine ⟨⟨h1, h2, rfl, ?_, fun h => (by cases h), fun _ => rfl⟩, fun h => (by cases h), trivial, fun h => absurd (h _ rfl) (by simp)⟩
        simp only [true_iff, decide_eq_true_eq]
        by_cases h64 : 2 ^ 64 ≤ u.writePosition.toNat + len'.toNat
        · exact .inl h64
        · right; rw [eu, Nat.mod_eq_of_lt (by omega)]; omega

theorem sim_prependLocal (hw : w ≤ 64) (hw' : 16 ≤ w) {p : Prop} (bs bs' : Bytes) (h : p → bs = bs') (hl : bs.length < 65536) (hl' : bs'.length < 65536) :
    Sim1 w p k (prependLocal bs) (Nat20.prependLocal bs') := by
  refine (sim_prepend hw _ _ _ _).given fun hp => ?_
  cases h hp
  refine ⟨rfl, ?_⟩
  rw [ofNat_toNat hw' hl, UInt64.toNat_ofNat']
  exact (Nat.mod_eq_of_lt (by omega)).symm

theorem sim_octet (hw : w ≤ 64) (hw' : 16 ≤ w) {p : Prop} (b : UInt8) : Sim1 w p k (prependLocal [b]) (Nat20.prependLocal [b]) :=
  sim_prependLocal hw hw' _ _ (fun _ => rfl) (by simp) (by simp)

theorem sim_byteCount {p : Prop} : Sim p k (byteCount : W w (BitVec w)) Nat20.byteCount Any (fun a b => a.toNat = b.toNat ∧ k ≤ a.toNat) := by
  intro t u hc hp
  match t, u, hc with
  | none, none, _ => exact ⟨trivial, id, trivial, fun x => ⟨x, Nat.le_refl _, by simp [streamByteCount, Nat20.streamByteCount], (hp x).2⟩⟩
  | some t, some u, h =>
    refine ⟨h, fun h => (by cases h), trivial, fun x => ⟨x, Nat.le_refl _, ?_, (hp x).2⟩⟩
    exact h.2.2.2.2.1 (x t rfl)

/-- The position is remembered. -/
theorem sim_mark {γ δ : Type} {p : Prop} {f' : BitVec w → W w γ} {g' : UInt64 → Nat20.W δ} {Q S : γ → δ → Prop}
    (h : ∀ a b, Sim (p ∧ a.toNat = b.toNat) a.toNat (f' a) (g' b) Q S) : Sim p k (byteCount >>= f') (Nat20.byteCount >>= g') Q S := by
  intro t u hc hp
  match t, u, hc with
  | none, none, hc => exact h _ _ none none hc fun x => ⟨⟨(hp x).1, by simp [streamByteCount, Nat20.streamByteCount]⟩, Nat.le_refl _⟩
  | some t, some u, hc => exact h _ _ (some t) (some u) hc fun x => ⟨⟨(hp x).1, hc.2.2.2.2.1 (x t rfl)⟩, Nat.le_refl _⟩

/-! ## What happens after an overflow -/

/-- After an overflow of the position nothing is written any more. -/
def Quiet {α : Type} (f : W w α) : Prop := ∀ t : Stream w, t.writePositionOverflow = true → t.bufferOverflow = true →
  ∃ a t1, f (some t) = .ok (a, some t1) ∧ t1.begin_ = t.begin_ ∧ t1.size = t.size ∧ t1.bufferOverflow = true ∧ t1.writePositionOverflow = true

/-- The same for the wide platform when the position would not fit on the other one. -/
def QuietWide {α : Type} (w : Nat) (g : Nat20.W α) : Prop := ∀ u : Nat20.Stream, Past w u → u.bufferOverflow = true →
  ∃ a u1, g (some u) = .ok (a, some u1) ∧ u1.begin_ = u.begin_ ∧ u1.size = u.size ∧ u1.bufferOverflow = true ∧ Past w u1

theorem quiet_bind {α β : Type} {f : W w α} {f' : α → W w β} (h : Quiet f) (h' : ∀ a, Quiet (f' a)) : Quiet (f >>= f') := by
  intro t h1 h2
  obtain ⟨a, t1, e, a1, a2, a3, a4⟩ := h t h1 h2
  obtain ⟨b, t2, e', b1, b2, b3, b4⟩ := h' a t1 a4 a3
  refine ⟨b, t2, ?_, by rw [b1, a1], by rw [b2, a2], b3, b4⟩
  simp only [bind, StateT.bind, Except.bind, e]
  exact e'

theorem quietWide_bind {α β : Type} {g : Nat20.W α} {g' : α → Nat20.W β} (h : QuietWide w g) (h' : ∀ a, QuietWide w (g' a)) : QuietWide w (g >>= g') := by
  intro t h1 h2
  obtain ⟨a, t1, e, a1, a2, a3, a4⟩ := h t h1 h2
  obtain ⟨b, t2, e', b1, b2, b3, b4⟩ := h' a t1 a4 a3
  refine ⟨b, t2, ?_, by rw [b1, a1], by rw [b2, a2], b3, b4⟩
  simp only [bind, StateT.bind, Except.bind, e]
  exact e'

theorem quiet_pure {α : Type} (a : α) : Quiet (Pure.pure a : W w α) := fun t h1 h2 => ⟨a, t, rfl, rfl, rfl, h2, h1⟩

theorem quietWide_pure {α : Type} (a : α) : QuietWide w (Pure.pure a : Nat20.W α) := fun t h1 h2 => ⟨a, t, rfl, rfl, rfl, h2, h1⟩

theorem quiet_local (bs : Bytes) : Quiet (prependLocal bs : W w Unit) := fun t h1 _ => by
  obtain ⟨t1, e, h⟩ := prepend_overflowed (localPtr bs) (BitVec.ofNat w bs.length) t h1
  exact ⟨(), t1, e, h⟩

theorem quietWide_local (bs : Bytes) : QuietWide w (Nat20.prependLocal bs) := fun t h1 h2 => by
  obtain ⟨t1, e, h⟩ := prepend_past (localPtr bs) (UInt64.ofNat bs.length) t h1 h2
  exact ⟨(), t1, e, h⟩

/-- Functions which write nothing after an overflow need to agree only before. -/
theorem sim_quiet {α β : Type} {p : Prop} {f : W w α} {g : Nat20.W β} {R : α → β → Prop} (h : p → Sim True 0 f g Any R) (hf : Quiet f) (hg : QuietWide w g) :
    Sim p k f g Any R := by
  intro t u hc hp
  match t, u, hc with
  | none, none, hc => exact h (hp fun x hx => by cases hx).1 none none hc fun _ => ⟨trivial, Nat.zero_le _⟩
  | some t, some u, hc =>
    cases ht : t.writePositionOverflow with
    | false =>
      refine h (hp fun x hx => ?_).1 (some t) (some u) hc fun _ => ⟨trivial, Nat.zero_le _⟩
      cases hx
      exact ht
    | true =>
      obtain ⟨h1, h2, h3, h4, h5, h6⟩ := hc
      obtain ⟨a, t1, e, a1, a2, a3, a4⟩ := hf t ht (h6 ht)
      obtain ⟨b, u1, e', b1, b2, b3, b4⟩ := hg u (h4.1 ht) (h3 ▸ h6 ht)
      rw [e, e']
      refine ⟨⟨by rw [a1, b1, h1], by rw [a2, b2, h2], by rw [a3, b3], (by rw [a4]; exact ⟨fun _ => b4, fun _ => rfl⟩), fun h => (by rw [a4] at h; cases h), fun _ => a3⟩,
        fun h => (by cases h), trivial, fun h => absurd (h t1 rfl) (by rw [a4]; decide)⟩

/-! ## Headers -/

variable (hw : w ≤ 64) (hw' : 16 ≤ w)
include hw hw'

theorem sim_base128Loop {p : Prop} (n : UInt64) (b : UInt8) : Sim1 w p k (base128Loop n b : W w Unit) (Nat20.base128Loop n b) := by
  rw [base128Loop, Nat20.base128Loop]
  refine sim_then (sim_octet hw hw' b) (sim_ite (fun _ => ?_) fun _ => sim_done)
  exact sim_base128Loop _ _
termination_by n.toNat
decreasing_by
  rename_i h
  have h2 : (n >>> 7).toNat = n.toNat / 128 := by
    rw [UInt64.toNat_shiftRight]; simp [Nat.shiftRight_eq_div_pow]
  have h3 : (n >>> 7).toNat ≠ 0 := by
    intro h0; apply h; apply UInt64.toNat_inj.1; exact h0
  show (n >>> 7).toNat < n.toNat
  omega

theorem sim_base128 {p : Prop} (n : UInt64) : Sim1 w p k (asn1Base128Int n : W w Unit) (Nat20.asn1Base128Int n) := sim_base128Loop hw hw' _ _

omit hw hw' in
theorem quiet_base128Loop (n : UInt64) (b : UInt8) : Quiet (base128Loop n b : W w Unit) := by
  rw [base128Loop]
  refine quiet_bind (quiet_local _) fun _ => ?_
  simp only
  split
  · exact quiet_base128Loop _ _
  · exact quiet_pure _
termination_by n.toNat
decreasing_by
  rename_i h
  have h2 : (n >>> 7).toNat = n.toNat / 128 := by
    rw [UInt64.toNat_shiftRight]; simp [Nat.shiftRight_eq_div_pow]
  have h3 : (n >>> 7).toNat ≠ 0 := by
    intro h0; apply h; apply UInt64.toNat_inj.1; exact h0
  show (n >>> 7).toNat < n.toNat
  omega

omit hw hw' in
theorem quietWide_base128Loop (n : UInt64) (b : UInt8) : QuietWide w (Nat20.base128Loop n b) := by
  rw [Nat20.base128Loop]
  refine quietWide_bind (quietWide_local _) fun _ => ?_
  simp only
  split
  · exact quietWide_base128Loop _ _
  · exact quietWide_pure _
termination_by n.toNat
decreasing_by
  rename_i h
  have h2 : (n >>> 7).toNat = n.toNat / 128 := by
    rw [UInt64.toNat_shiftRight]; simp [Nat.shiftRight_eq_div_pow]
  have h3 : (n >>> 7).toNat ≠ 0 := by
    intro h0; apply h; apply UInt64.toNat_inj.1; exact h0
  show (n >>> 7).toNat < n.toNat
  omega

omit hw hw' in
theorem quiet_lengthLoop (n : BitVec w) (b : UInt8) (k : BitVec w) : Quiet (lengthLoop n b k : W w (BitVec w)) := by
  rw [lengthLoop]
  simp only
  refine quiet_bind (quiet_local _) fun _ => ?_
  split
  · exact quiet_lengthLoop _ _ _
  · exact quiet_pure _
termination_by n.toNat
decreasing_by
  rename_i h
  have h2 : (n >>> 8).toNat = n.toNat / 256 := by
    rw [BitVec.toNat_ushiftRight]; simp [Nat.shiftRight_eq_div_pow]
  have h3 : (n >>> 8).toNat ≠ 0 := by
    intro h0; apply h; apply BitVec.eq_of_toNat_eq; rw [h0]; simp
  show (n >>> 8).toNat < n.toNat
  omega

omit hw hw' in
theorem quietWide_lengthLoop (n : UInt64) (b : UInt8) (k : UInt64) : QuietWide w (Nat20.lengthLoop n b k) := by
  rw [Nat20.lengthLoop]
  simp only
  refine quietWide_bind (quietWide_local _) fun _ => ?_
  split
  · exact quietWide_lengthLoop _ _ _
  · exact quietWide_pure _
termination_by n.toNat
decreasing_by
  rename_i h
  have h2 : (n >>> 8).toNat = n.toNat / 256 := by
    rw [UInt64.toNat_shiftRight]; simp [Nat.shiftRight_eq_div_pow]
  have h3 : (n >>> 8).toNat ≠ 0 := by
    intro h0; apply h; apply UInt64.toNat_inj.1; exact h0
  show (n >>> 8).toNat < n.toNat
  omega

omit hw in
theorem octet_and (n : BitVec w) (m : UInt64) (h : n.toNat = m.toNat) : toOctet (n &&& 0xff) = (m &&& 0xff).toUInt8 := by
  apply UInt8.toNat_inj.1
  unfold toOctet
  rw [UInt8.toNat_ofNat', BitVec.toNat_and, UInt64.toNat_toUInt8, UInt64.toNat_and, h]
  have : (0xff : BitVec w).toNat = 255 := ofNat_toNat (n := 255) hw' (by decide)
  rw [this]
  rfl

theorem sim_lengthLoop {p : Prop} {j : Nat} (n : BitVec w) (m : UInt64) (h : n.toNat = m.toNat) (b : UInt8) (k : BitVec w) (l : UInt64) (hk : k.toNat = l.toNat)
    (hs : k.toNat + n.toNat / 256 < 2 ^ w - 1) :
    Sim p j (lengthLoop n b k : W w (BitVec w)) (Nat20.lengthLoop m b l) Any (fun a b => a.toNat = b.toNat) := by
  have hpw : 2 ^ w ≤ 2 ^ 64 := Nat.pow_le_pow_right (by decide) hw
  have hp64 : (2 : Nat) ^ 64 = 18446744073709551616 := by decide
  have hp16 : 2 ^ 16 ≤ 2 ^ w := Nat.pow_le_pow_right (by decide) hw'
  have e1 : (n >>> 8).toNat = n.toNat / 256 := by
    rw [BitVec.toNat_ushiftRight]; simp [Nat.shiftRight_eq_div_pow]
  have e2 : (m >>> 8).toNat = m.toNat / 256 := by
    rw [UInt64.toNat_shiftRight]; simp [Nat.shiftRight_eq_div_pow]
  have k1 : (k + 1).toNat = k.toNat + 1 := by
    rw [BitVec.toNat_add, show (1 : BitVec w).toNat = 1 from ofNat_toNat (n := 1) hw' (by decide)]
    exact Nat.mod_eq_of_lt (by omega)
  have l1 : (l + 1).toNat = l.toNat + 1 := by
    rw [UInt64.toNat_add, show (1 : UInt64).toNat = 1 from rfl]
    exact Nat.mod_eq_of_lt (by omega)
  have hz : n >>> 8 ≠ 0 ↔ m >>> 8 ≠ 0 := by
    apply not_congr
    rw [← BitVec.toNat_inj, ← UInt64.toNat_inj, e1, e2, h]
    simp
  rw [lengthLoop, Nat20.lengthLoop]
  simp only
  refine sim_then (sim_octet hw hw' b) (sim_iff hz (fun hh => ?_) fun _ => ?_)
  · rw [octet_and hw' (n >>> 8) (m >>> 8) (by rw [e1, e2, h])]
    have hne : n.toNat / 256 ≠ 0 := fun h0 => hh (by apply BitVec.eq_of_toNat_eq; rw [e1, h0]; simp)
    exact sim_lengthLoop (n >>> 8) (m >>> 8) (by rw [e1, e2, h]) _ (k + 1) (l + 1) (by rw [k1, l1, hk]) (by rw [k1, e1]; omega)
  · exact sim_pure _ _ trivial fun _ => by rw [k1, l1, hk]
termination_by n.toNat
decreasing_by
  show (n >>> 8).toNat < n.toNat
  omega

end Nat20.Sized

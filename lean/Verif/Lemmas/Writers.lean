import Verif.Spec.Writers
import Verif.Lemmas.Once
import Verif.Lemmas.Steps
/-!
# Lemmas: rendering with addresses follows rendering with values
-/

namespace Nat20

/-- The octets in `L` are still what they were. -/
def Intact (L : Addr → Prop) (m0 m : Memory) : Prop := ∀ a, L a → m.get a = m0.get a

/-- The buffer is where it was, and no octet of it has become unwritten. -/
def Shrinks (v r : Option SVars) : Prop := (∀ a, Unwritten r a → Unwritten v a) ∧ r.map SVars.begin_ = v.map SVars.begin_

theorem Shrinks.refl (v : Option SVars) : Shrinks v v := ⟨fun _ h => h, rfl⟩

/-- The program `p` reads octets in `L'` only, writes only where the stream is unwritten and no octet twice, and, as long as the octets in `L` are those of `m0` and not
in the unwritten part, does what `w` does. -/
structure Follows {α : Type} (m0 : Memory) (L L' : Addr → Prop) (p : WP α) (w : W α) : Prop where
  once : ∀ v, (p v).Once L' (fun S r => Shrinks v r.2 ∧ ∀ a, Unwritten r.2 a → S a) (Unwritten v)
  sim : ∀ m v x s', Intact L m0 m → (∀ a, Unwritten v a → ¬ L a) → w (v.map (SVars.view m)) = .ok (x, s') →
    ∃ v' m', (p v).run m = .ok ((x, v'), m') ∧ v'.map (SVars.view m') = s' ∧ (∀ a, ¬ Unwritten v a → m'.get a = m.get a) ∧ ∀ r, (m' r).length = (m r).length

section
variable {α β : Type} {m0 : Memory} {L L' : Addr → Prop}

theorem Follows.within {p : WP α} {w : W α} (h : Follows m0 L L' p w) (v : Option SVars) : (p v).Within L' (Unwritten v) (fun _ => False) fun r => Shrinks v r.2 :=
  (h.once v).within fun _ _ hx => hx.1

theorem Follows.bind {p : WP α} {w : W α} {f : α → WP β} {g : α → W β} (h : Follows m0 L L' p w) (hf : ∀ x, Follows m0 L L' (f x) (g x)) :
    Follows m0 L L' (p >>= f) (w >>= g) := by
  refine ⟨fun v => ?_, fun m v x s' hm hv hw => ?_⟩
  · refine (h.once v).seq fun S r hr => ?_
    exact ((hf r.1).once r.2).mono (fun _ h => h) hr.2 fun T T' y hT hy => ⟨⟨fun a ha => hr.1.1 a (hy.1.1 a ha), hy.1.2.trans hr.1.2⟩, fun a ha => hT a (hy.2 a ha)⟩
  · have hw' : (w (v.map (SVars.view m))).bind (fun r => g r.1 r.2) = .ok (x, s') := hw
    cases hx : w (v.map (SVars.view m)) with
    | error u => rw [hx] at hw'; cases hw'
    | ok r =>
      rw [hx] at hw'
      obtain ⟨v1, m1, h1, h2, h3, h4⟩ := h.sim m v r.1 r.2 hm hv hx
      have hn := (within_result (h.within v) m m1 _ h1).1
      have hw1 : g r.1 (v1.map (SVars.view m1)) = .ok (x, s') := by rw [h2]; exact hw'
      obtain ⟨v2, m2, k1, k2, k3, k4⟩ := (hf r.1).sim m1 v1 x s' (fun a ha => (h3 a fun hu => hv a hu ha).trans (hm a ha)) (fun a ha => hv a (hn a ha)) hw1
      refine ⟨v2, m2, ?_, k2, fun a ha => (k3 a fun hu => ha (hn a hu)).trans (h3 a ha), fun r => (k4 r).trans (h4 r)⟩
      exact (run_bind (f := fun r => f r.1 r.2) h1).trans k1

theorem Follows.pure (x : α) : Follows m0 L L' (Pure.pure x) (Pure.pure x) := by
  refine ⟨fun v => .done _ _ ⟨Shrinks.refl _, fun _ h => h⟩, fun m v y s' _ _ hw => ?_⟩
  have hw : (Except.ok (x, v.map (SVars.view m)) : Except UB _) = .ok (y, s') := hw
  simp only [Except.ok.injEq, Prod.mk.injEq] at hw
  exact ⟨v, m, by rw [← hw.1]; rfl, hw.2, fun _ _ => rfl, fun _ => rfl⟩

theorem follows_lift {p : Prog α} {e : Except UB α} (h1 : p.OnlyReads L' fun _ => True)
    (h2 : ∀ m x, Intact L m0 m → e = .ok x → p.run m = .ok (x, m)) : Follows m0 L L' (liftP p) (liftM e) := by
  refine ⟨fun v => ?_, fun m v y s' hm _ hw => ?_⟩
  · exact Prog.Once.seq (h1 _) fun S x hx => .done _ _ ⟨Shrinks.refl _, fun a ha => by rw [hx.1]; exact ha⟩
  · have hw : (e.bind fun x => .ok (x, v.map (SVars.view m))) = Except.ok (y, s') := hw
    cases he : e with
    | error u => rw [he] at hw; cases hw
    | ok x =>
      rw [he] at hw
      have hw : (Except.ok (x, v.map (SVars.view m)) : Except UB _) = .ok (y, s') := hw
      simp only [Except.ok.injEq, Prod.mk.injEq] at hw
      refine ⟨v, m, ?_, hw.2, fun _ _ => rfl, fun _ => rfl⟩
      rw [← hw.1]
      exact run_bind (h2 m x hm he)

theorem follows_pureP (e : Except UB α) : Follows m0 L L' (liftP (pureP e)) (liftM e) := by
  refine follows_lift ?_ fun m x _ he => ?_
  · cases e with
    | ok x => exact onlyReads_done x trivial
    | error u => exact fun S => .crash S u
  · rw [he]; rfl

theorem follows_byteCount : Follows m0 L L' byteCountP byteCount := by
  refine ⟨fun v => .done _ _ ⟨Shrinks.refl _, fun _ h => h⟩, fun m v y s' _ _ hw => ?_⟩
  have hw : (Except.ok (streamByteCount (v.map (SVars.view m)), v.map (SVars.view m)) : Except UB _) = .ok (y, s') := hw
  simp only [Except.ok.injEq, Prod.mk.injEq] at hw
  refine ⟨v, m, ?_, hw.2, fun _ _ => rfl, fun _ => rfl⟩
  rw [← hw.1]
  cases v <;> rfl

/-! ## Copying -/

theorem run_copyApart (dst src : Addr) (N : Nat) (h : ¬ dst.Overlaps src N) (bs : Bytes) : ∀ (i : Nat) (m : Memory), i + bs.length = N →
    (bs ≠ [] → dst.off + N ≤ (m dst.region).length) → (∀ j b, bs[j]? = some b → m.get (src.plus (i + j)) = some b) →
    (copyP dst src bs.length i).run m = .ok ((), m.write (dst.plus i) bs) := by
  induction bs with
  | nil => intro i m _ _ _; simp only [List.length_nil, copyP, Prog.run, write_nil]
  | cons b bs ih =>
    intro i m hN hr hg
    have hr := hr (by simp)
    simp only [List.length_cons] at hN
    simp only [List.length_cons, copyP]
    rw [run_load m (src.plus i) b _ (hg 0 b rfl)]
    have hlt : (dst.plus i).off < (m (dst.plus i).region).length := by
      show dst.off + i < (m dst.region).length
      omega
    rw [run_store _ _ _ _ hlt, ih (i + 1) _ (by omega) (fun _ => by rw [poke_length]; exact hr) (fun j c hj => ?_)]
    · rw [write_cons _ _ _ _ hlt, plus_plus]
    · rw [get_poke, if_neg]
      · have := hg (j + 1) c (by simpa using hj)
        rw [← this]
        congr 2
        omega
      · rintro ⟨he, -⟩
        apply h
        simp only [Addr.plus, Addr.mk.injEq] at he
        have hj' := (List.getElem?_eq_some_iff.1 hj).1
        exact ⟨he.1.symm, by omega, by omega⟩

theorem run_put (bs : Bytes) : ∀ (dst : Addr) (m : Memory), (bs ≠ [] → dst.off + bs.length ≤ (m dst.region).length) →
    (putP dst bs).run m = .ok ((), m.write dst bs) := by
  induction bs with
  | nil => intro dst m _; simp only [putP, Prog.run, write_nil]
  | cons b bs ih =>
    intro dst m hr
    have hr := hr (by simp)
    simp only [List.length_cons] at hr
    simp only [putP]
    have hlt : dst.off < (m dst.region).length := by omega
    rw [run_store _ _ _ _ hlt, ih _ _ (fun _ => by rw [poke_length]; show dst.off + 1 + bs.length ≤ _; simp only [Addr.plus]; omega), write_cons _ _ _ _ hlt]

theorem once_copy (dst src : Addr) (n : Nat) : ∀ (i : Nat) (S : Addr → Prop), (∀ a, src.Covers (i + n) a.region a.off → L' a) →
    (∀ a, (dst.plus i).Covers n a.region a.off → S a) →
    (copyP dst src n i).Once L' (fun T _ => ∀ a, S a → ¬ (dst.plus i).Covers n a.region a.off → T a) S := by
  induction n with
  | zero => intro i S _ _; exact .done _ _ fun a ha _ => ha
  | succ n ih =>
    intro i S hl hs
    refine .load _ _ _ (hl _ ⟨rfl, by simp [Addr.plus], by simp [Addr.plus]⟩) fun b => .store _ _ _ _ (hs _ ⟨rfl, Nat.le_refl _, by simp⟩) ?_
    refine (ih (i + 1) _ (fun a h => hl a (by rw [show i + (n + 1) = i + 1 + n by omega]; exact h)) fun a h => ?_).mono (fun _ h => h) (fun _ h => h) fun T T' _ hT h a ha hn => hT a (h a ⟨ha, ?_⟩ ?_)
    · obtain ⟨h1, h2, h3⟩ := h
      simp only [Addr.plus] at h1 h2 h3
      refine ⟨hs a ⟨h1, by simp only [Addr.plus]; omega, by simp only [Addr.plus]; omega⟩, fun he => ?_⟩
      rw [he] at h2
      simp only [Addr.plus] at h2
      omega
    · intro he
      exact hn (by rw [he]; exact ⟨rfl, Nat.le_refl _, by simp⟩)
    · rintro ⟨h1, h2, h3⟩
      simp only [Addr.plus] at h1 h2 h3
      exact hn ⟨h1, by simp only [Addr.plus]; omega, by simp only [Addr.plus]; omega⟩

theorem once_put (bs : Bytes) : ∀ (dst : Addr) (S : Addr → Prop), (∀ a, dst.Covers bs.length a.region a.off → S a) →
    (putP dst bs).Once L' (fun T _ => ∀ a, S a → ¬ dst.Covers bs.length a.region a.off → T a) S := by
  induction bs with
  | nil => intro dst S _; exact .done _ _ fun a ha _ => ha
  | cons b bs ih =>
    intro dst S hs
    refine .store _ _ _ _ (hs _ ⟨rfl, Nat.le_refl _, by simp⟩) ?_
    refine (ih _ _ fun a h => ?_).mono (fun _ h => h) (fun _ h => h) fun T T' _ hT h a ha hn => hT a (h a ⟨ha, ?_⟩ ?_)
    · obtain ⟨h1, h2, h3⟩ := h
      simp only [Addr.plus] at h1 h2 h3
      refine ⟨hs a ⟨h1, by omega, by simp only [List.length_cons]; omega⟩, fun he => ?_⟩
      rw [he] at h2
      omega
    · intro he
      exact hn (by rw [he]; exact ⟨rfl, Nat.le_refl _, by simp⟩)
    · rintro ⟨h1, h2, h3⟩
      simp only [Addr.plus] at h1 h2 h3
      exact hn ⟨h1, by omega, by simp only [List.length_cons]; omega⟩

theorem get_write (m : Memory) (d a : Addr) (bs : Bytes) (hr : bs ≠ [] → d.off + bs.length ≤ (m d.region).length) (h : ¬ d.Covers bs.length a.region a.off) :
    (m.write d bs).get a = m.get a := by
  by_cases hb : bs = []
  · rw [hb, write_nil]
  · have hr := hr hb
    unfold Memory.get Memory.write
    by_cases he : a.region = d.region
    · rw [if_pos he, he]
      by_cases hlt : a.off < d.off
      · rw [List.append_assoc, List.getElem?_append_left (by rw [List.length_take]; omega), List.getElem?_take, if_pos hlt]
      · have hge : d.off + bs.length ≤ a.off := by
          refine Nat.le_of_not_lt fun hc => h ⟨he, by omega, hc⟩
        rw [List.getElem?_append_right (by simp only [List.length_append, List.length_take]; omega), List.getElem?_drop]
        congr 1
        simp only [List.length_append, List.length_take]
        omega
    · rw [if_neg he]

theorem tail_write_plus (m : Memory) (d : Addr) (k : Nat) (bs : Bytes) (hr : k + bs.length ≤ (m.tail d).length) :
    (m.write (d.plus k) bs).tail d = (m.tail d).take k ++ bs ++ (m.tail d).drop (k + bs.length) := by
  unfold Memory.tail at hr ⊢
  unfold Memory.write Addr.plus
  simp only [if_true]
  rw [List.length_drop] at hr
  by_cases hd : d.off ≤ (m d.region).length
  · rw [List.append_assoc, List.append_assoc, List.drop_append_of_le_length (by rw [List.length_take]; omega), List.drop_drop, List.drop_take]
    congr 2
    · congr 1
      omega
    · rw [Nat.add_assoc]
  · have hk : k = 0 := by omega
    have hb : bs = [] := List.length_eq_zero_iff.1 (by omega)
    subst hk hb
    simp

theorem write_length' (m : Memory) (a : Addr) (x : Bytes) (h : x ≠ [] → a.off + x.length ≤ (m a.region).length) (r : Region) : (m.write a x r).length = (m r).length := by
  by_cases hx : x = []
  · rw [hx, write_nil]
  · exact write_length m a x (h hx) r

/-- The octets of a source, when they can be read. -/
theorem source_get (m m0 : Memory) (hm : Intact L m0 m) (a : Addr) (n : Nat) (hL : ∀ x, a.Covers n x.region x.off → L x) (j : Nat) (b : UInt8)
    (h : ((m0.tail a).take n)[j]? = some b) : m.get (a.plus j) = some b := by
  rw [List.getElem?_take] at h
  split at h
  · next hj =>
    rw [hm (a.plus j) (hL (a.plus j) ⟨rfl, Nat.le_add_right _ _, Nat.add_lt_add_left hj _⟩)]
    unfold Memory.get Memory.tail Addr.plus at *
    rw [List.getElem?_drop] at h
    exact h
  · cases h

theorem run_memcpy (m m0 : Memory) (hm : Intact L m0 m) (d : Addr) (k : Nat) (src : Source) (len : Nat) (hL : ∀ a, src.Has len a → L a)
    (hd : ∀ a, (d.plus k).Covers len a.region a.off → ¬ L a) (hs : len ≤ (src.value m0 len).data.length) (hr : k + len ≤ (m.tail d).length) :
    (memcpyP (d.plus k) src len).run m = .ok ((), m.write (d.plus k) ((src.value m0 len).data.take len)) := by
  have hroom : 0 < len → (d.plus k).off + len ≤ (m (d.plus k).region).length := by
    intro h0
    unfold Memory.tail at hr
    rw [List.length_drop] at hr
    simp only [Addr.plus]
    omega
  cases src with
  | mem a =>
    simp only [Source.value] at hs ⊢
    simp only [memcpyP]
    have hlen : ((m0.tail a).take len).length = len := by rw [List.length_take] at hs ⊢; omega
    have hno : ¬ (d.plus k).Overlaps a len := by
      rintro ⟨h1, h2, h3⟩
      by_cases hc : (d.plus k).off ≤ a.off
      · exact hd a ⟨h1.symm, hc, by omega⟩ (hL a ⟨rfl, Nat.le_refl _, by omega⟩)
      · exact hd (d.plus k) ⟨rfl, Nat.le_refl _, by omega⟩ (hL (d.plus k) ⟨h1, by omega, by omega⟩)
    rw [if_neg hno, List.take_take, Nat.min_self]
    have := run_copyApart (d.plus k) a len hno ((m0.tail a).take len) 0 m (by omega) (fun hne => hroom (by
      cases len with
      | zero => exact absurd (List.take_zero) hne
      | succ n => omega)) (fun j b hj => by rw [Nat.zero_add]; exact source_get m m0 hm a len (fun x hx => hL x hx) j b hj)
    rw [hlen] at this
    exact this
  | const p =>
    simp only [Source.value] at hs ⊢
    simp only [memcpyP]
    rw [if_neg (by omega)]
    have hlen : (p.data.take len).length = len := by rw [List.length_take]; omega
    exact run_put _ _ _ fun hne => by
      rw [hlen]
      exact hroom (by
        cases len with
        | zero => exact absurd (List.take_zero) hne
        | succ n => omega)

theorem once_memcpy (d : Addr) (src : Source) (len : Nat) (S : Addr → Prop) (hL : ∀ a, src.Has len a → L' a) (hS : ∀ a, d.Covers len a.region a.off → S a) :
    (memcpyP d src len).Once L' (fun T _ => ∀ a, S a → ¬ d.Covers len a.region a.off → T a) S := by
  cases src with
  | mem a =>
    simp only [memcpyP]
    split
    · exact .crash _ _
    · exact once_copy d a len 0 S (fun x hx => hL x (by rw [Nat.zero_add] at hx; exact hx)) hS
  | const p =>
    simp only [memcpyP]
    split
    · exact .crash _ _
    · next h =>
      have hlen : (p.data.take len).length = len := by rw [List.length_take, Nat.min_eq_left (by omega)]
      have := once_put (L' := L') (p.data.take len) d S (by rw [hlen]; exact hS)
      rw [hlen] at this
      exact this

/-! ## `n20_stream_prepend` -/

theorem prepend_room (s : SVars) (len : UInt64) (h1 : ¬ (s.writePosition + len < s.writePosition)) (h2 : ¬ (s.size < s.writePosition + len)) :
    (s.size - (s.writePosition + len)).toNat + len.toNat + s.writePosition.toNat = s.size.toNat := by
  rw [UInt64.lt_iff_toNat_lt] at h1 h2
  rw [UInt64.toNat_sub_of_le _ _ (UInt64.le_iff_toNat_le.2 (by omega))]
  have := UInt64.toNat_add s.writePosition len
  have l1 := s.writePosition.toNat_lt
  have l2 := len.toNat_lt
  have l3 := s.size.toNat_lt
  omega

theorem follows_prepend (src : Option Source) (len : UInt64) (hsub : ∀ a, L a → L' a) (hL : ∀ x, src = some x → ∀ a, x.Has len.toNat a → L a) :
    Follows m0 L L' (streamPrependP src len) (streamPrepend (src.map (Source.value m0 len.toNat)) len) := by
  have narrow : ∀ (s s1 : SVars) (b : Addr), s.begin_ = some b → s1.begin_ = s.begin_ → s1.size = s.size → s.bufferOverflow = false →
      s.writePosition.toNat ≤ s1.writePosition.toNat → ∀ a, Unwritten (some s1) a → Unwritten (some s) a := by
    rintro s s1 b hb h1 h2 h3 h4 a ⟨t, c, e1, e2, e3, e4, e5, e6⟩
    cases e1
    refine ⟨s, c, rfl, by rw [← h1, e2], h3, e4, e5, ?_⟩
    rw [h2] at e6
    omega
  refine ⟨fun v => ?_, fun m v y s' hm hv hw => ?_⟩
  · cases v with
    | none => exact .done _ _ ⟨Shrinks.refl _, fun _ h => h⟩
    | some s =>
      simp only [streamPrependP]
      split
      · next h =>
        have hno : ∀ (s1 : SVars) (a : Addr), s1.bufferOverflow = true → ¬ Unwritten (some s1) a := by
          rintro s1 a h1 ⟨t, c, e1, e2, e3, -⟩
          cases e1
          rw [h1] at e3
          cases e3
        exact .done _ _ ⟨⟨fun a ha => (hno _ a h ha).elim, rfl⟩, fun a ha => (hno _ a h ha).elim⟩
      · next hbo =>
        simp only [Bool.or_eq_true, decide_eq_true_eq, not_or] at hbo
        obtain ⟨⟨⟨hw1, hw2⟩, hb⟩, hsz⟩ := hbo
        have hroom := prepend_room s len hw2 hsz
        have hpos : (s.writePosition + len).toNat = s.writePosition.toNat + len.toNat := by
          rw [UInt64.lt_iff_toNat_lt] at hw2
          have := UInt64.toNat_add s.writePosition len
          have l1 := s.writePosition.toNat_lt
          have l2 := len.toNat_lt
          omega
        split
        · next d x hd =>
          refine Prog.Once.seq (once_memcpy _ x len.toNat _ (fun a ha => hsub a (hL x rfl a ha)) fun a ha => ?_) fun T _ hT => .done _ _ ?_
          · obtain ⟨e1, e2, e3⟩ := ha
            simp only [Addr.plus] at e1 e2 e3
            exact ⟨s, d, rfl, hd, by simpa using hb, e1, by omega, by omega⟩
          · have hn := narrow s { s with writePosition := s.writePosition + len, writePositionOverflow := s.writePositionOverflow || decide (s.writePosition + len < s.writePosition), bufferOverflow := s.writePositionOverflow || decide (s.writePosition + len < s.writePosition) || s.bufferOverflow || decide (s.size < s.writePosition + len) } d hd rfl rfl (by simpa using hb) (by simp only; omega)
            refine ⟨⟨hn, rfl⟩, fun a ha => hT a (hn a ha) ?_⟩
            rintro ⟨e1, e2, e3⟩
            obtain ⟨t, c, k1, k2, k3, k4, k5, k6⟩ := ha
            cases k1
            simp only at k2 k6
            rw [hd] at k2
            cases k2
            simp only [Addr.plus] at e2
            omega
        · exact .crash _ _
  · cases v with
    | none =>
      have hw : (Except.ok ((), none) : Except UB (Unit × Option Stream)) = .ok (y, s') := hw
      simp only [Except.ok.injEq, Prod.mk.injEq] at hw
      exact ⟨none, m, rfl, hw.2, fun _ _ => rfl, fun _ => rfl⟩
    | some s =>
      simp only [Option.map_some, streamPrepend, SVars.view] at hw
      simp only [streamPrependP]
      split at hw
      · next hbo =>
        rw [if_pos hbo]
        simp only [Except.ok.injEq, Prod.mk.injEq] at hw
        exact ⟨_, m, rfl, hw.2, fun _ _ => rfl, fun _ => rfl⟩
      · next hbo =>
        rw [if_neg hbo]
        simp only [Bool.or_eq_true, decide_eq_true_eq, not_or] at hbo
        obtain ⟨⟨⟨hw1, hw2⟩, hb⟩, hsz⟩ := hbo
        have hroom := prepend_room s len hw2 hsz
        cases hd : s.begin_ with
        | none => rw [hd] at hw; simp [memcpy] at hw
        | some d =>
          cases hx : src with
          | none => rw [hd, hx] at hw; simp [memcpy] at hw
          | some x =>
            rw [hd, hx] at hw
            simp only [Option.map_some, memcpy] at hw
            by_cases c1 : (x.value m0 len.toNat).data.length < len.toNat
            · rw [if_pos c1] at hw; simp at hw
            · rw [if_neg c1] at hw
              by_cases c2 : (m.tail d).length < (s.size - (s.writePosition + len)).toNat + len.toNat
              · rw [if_pos c2] at hw; simp at hw
              · rw [if_neg c2] at hw
                simp only [Except.ok.injEq, Prod.mk.injEq] at hw
                have hzone : ∀ a : Addr, (d.plus (s.size - (s.writePosition + len)).toNat).Covers len.toNat a.region a.off → Unwritten (some s) a := by
                  rintro a ⟨e1, e2, e3⟩
                  simp only [Addr.plus] at e1 e2 e3
                  exact ⟨s, d, rfl, hd, by simpa using hb, e1, by omega, by omega⟩
                have hrun := run_memcpy m m0 hm d (s.size - (s.writePosition + len)).toNat x len.toNat (hL x hx) (fun a ha => hv a (hzone a ha)) (by omega) (by omega)
                have hlen : ((x.value m0 len.toNat).data.take len.toNat).length = len.toNat := by rw [List.length_take]; omega
                have hfit : (x.value m0 len.toNat).data.take len.toNat ≠ [] →
                    (d.plus (s.size - (s.writePosition + len)).toNat).off + ((x.value m0 len.toNat).data.take len.toNat).length ≤ (m (d.plus (s.size - (s.writePosition + len)).toNat).region).length := by
                  intro hne
                  have h0 : 0 < len.toNat := by rw [← hlen]; exact List.length_pos_iff.2 hne
                  rw [hlen]
                  unfold Memory.tail at c2
                  rw [List.length_drop] at c2
                  simp only [Addr.plus]
                  omega
                refine ⟨_, _, run_bind hrun, ?_, fun a ha => get_write _ _ _ _ hfit fun hc => ha (hzone a (by rw [hlen] at hc; exact hc)), write_length' _ _ _ hfit⟩
                rw [← hw.2]
                simp only [Option.map_some, SVars.view]
                rw [tail_write_plus _ _ _ _ (by rw [hlen]; omega), hlen]

theorem follows_local (bs : Bytes) : Follows m0 L L' (prependLocalP bs) (prependLocal bs) := by
  have h := follows_prepend (m0 := m0) (L := fun a => L a ∧ L' a) (L' := L') (some (.const ⟨[], bs⟩)) (UInt64.ofNat bs.length) (fun _ h => h.2) (fun x hx a ha => by cases hx; exact ha.elim)
  have h' := follows_prepend (m0 := m0) (L := L) (L' := L) (some (.const ⟨[], bs⟩)) (UInt64.ofNat bs.length) (fun _ h => h) (fun x hx a ha => by cases hx; exact ha.elim)
  exact ⟨h.once, h'.sim⟩

end

end Nat20

import Verif.Lemmas.Arena
/-!
# Lemmas: which memory the digest functions change
-/

namespace Nat20

theorem ok_of_bind {α β : Type} {x : Except UB α} {f : α → Except UB β} {y : β} (h : (x >>= f) = .ok y) : ∃ a, x = .ok a ∧ f a = .ok y := by
  cases x with
  | error e => cases h
  | ok a => exact ⟨a, rfl, h⟩

/-- The two memories have the same octets at the places in `P`. -/
def Agree (P : Region → Nat → Prop) (m m' : Memory) : Prop := ∀ r i, P r i → (m' r)[i]? = (m r)[i]?

theorem Agree.refl (P : Region → Nat → Prop) (m : Memory) : Agree P m m := fun _ _ _ => rfl

theorem Agree.trans {P : Region → Nat → Prop} {m m' m'' : Memory} (h : Agree P m m') (h' : Agree P m' m'') : Agree P m m'' :=
  fun r i hp => (h' r i hp).trans (h r i hp)

theorem Agree.mono {P Q : Region → Nat → Prop} {m m' : Memory} (h : Agree P m m') (hq : ∀ r i, Q r i → P r i) : Agree Q m m' :=
  fun r i hp => h r i (hq r i hp)

theorem Agree.set {P : Region → Nat → Prop} (m : Memory) (r : Region) (b : Bytes) (h : ∀ i, ¬ P r i) : Agree P m (m.set r b) := by
  intro x i hp
  by_cases hx : x = r
  · subst hx; exact absurd hp (h i)
  · rw [Memory.set_other _ _ _ _ hx]

/-- Everything outside of the `n` octets at `out`. -/
def outside (out : Option Addr) (n : Nat) : Region → Nat → Prop := fun r i => ∀ a, out = some a → ¬ a.Covers n r i

theorem agree_write (m : Memory) (a : Addr) (b : Bytes) (n : Nat) (hb : n ≤ b.length) (hd : b.drop n = (m.tail a).drop n) (hn : n ≤ (m.tail a).length)
    (hn0 : 0 < n) : Agree (outside (some a) n) m (m.store a b) := by
  intro r i hp
  have hc := hp a rfl
  unfold Memory.store
  by_cases hr : r = a.region
  · subst hr
    rw [Memory.set_same]
    have hlen : a.off + n ≤ (m a.region).length := by
      simp only [Memory.tail, List.length_drop] at hn
      omega
    have ht : ((m a.region).take a.off).length = a.off := by rw [List.length_take]; omega
    by_cases hi : i < a.off
    · rw [List.getElem?_append_left (by omega), List.getElem?_take_of_lt hi]
    · have hin : a.off + n ≤ i := by
        rcases Nat.lt_or_ge i (a.off + n) with h | h
        · exact absurd ⟨rfl, by omega, h⟩ hc
        · exact h
      rw [List.getElem?_append_right (by omega), ht]
      have e : ∀ l : Bytes, l[i - a.off]? = (l.drop n)[i - a.off - n]? := by
        intro l
        rw [List.getElem?_drop]
        congr 1
        omega
      rw [e b, hd, ← e]
      simp only [Memory.tail, List.getElem?_drop]
      congr 1
      omega
  · rw [Memory.set_other _ _ _ _ hr]

/-! ## Digest -/

theorem shaFinalize_out {w : Nat} (P : ShaCode w) (s : ShaState w) (out : Option Bytes) (n : Nat) (r : Option (ShaState w) × Option Bytes)
    (h : shaFinalize P (some s) out n = .ok r) : ∃ d x, out = some d ∧ n ≤ d.length ∧ x.length = n ∧ r.2 = some (x ++ d.drop n) := by
  unfold shaFinalize at h
  simp only at h
  obtain ⟨s1, -, h⟩ := ok_of_bind h
  obtain ⟨s2, -, h⟩ := ok_of_bind h
  obtain ⟨s3, -, h⟩ := ok_of_bind h
  obtain ⟨s4, -, h⟩ := ok_of_bind h
  cases out with
  | none => cases h
  | some d =>
    simp only at h
    by_cases hd : d.length < n
    · rw [if_pos hd] at h; cases h
    · rw [if_neg hd] at h
      cases h
      exact ⟨d, _, rfl, by omega, by simp, rfl⟩

theorem digestFinalizeAt_out (alg : UInt32) (halg : digestEnumToSize alg ≠ 0) (st : DigestState) (out : Option Bytes) (r : DigestState × Option Bytes)
    (h : digestFinalizeAt alg st out = .ok r) :
    ∃ d x, out = some d ∧ (digestEnumToSize alg).toNat ≤ d.length ∧ x.length = (digestEnumToSize alg).toNat ∧ r.2 = some (x ++ d.drop (digestEnumToSize alg).toNat) := by
  unfold digestFinalizeAt at h
  by_cases h0 : alg = 0
  · subst h0
    obtain ⟨x, hx, h⟩ := ok_of_bind h
    cases h
    exact shaFinalize_out _ _ _ _ _ hx
  rw [if_neg h0] at h
  by_cases h1 : alg = 1
  · subst h1
    obtain ⟨x, hx, h⟩ := ok_of_bind h
    cases h
    exact shaFinalize_out _ _ _ _ _ hx
  rw [if_neg h1] at h
  by_cases h2 : alg = 2
  · subst h2
    obtain ⟨x, hx, h⟩ := ok_of_bind h
    cases h
    exact shaFinalize_out _ _ _ _ _ hx
  rw [if_neg h2] at h
  by_cases h3 : alg = 3
  · subst h3
    obtain ⟨x, hx, h⟩ := ok_of_bind h
    cases h
    exact shaFinalize_out _ _ _ _ _ hx
  · exact absurd (by simp [digestEnumToSize, h0, h1, h2, h3]) halg

/-- `n20_digest` changes its output only, and that only if it succeeds. -/
theorem digestAt_frame (m : Memory) (alg : UInt32) (msg : Option (List MList)) (count : UInt64) (out : Option Addr) (size : Option UInt64) (x : MReply)
    (h : digestAt m alg msg count out size = .ok x) :
    Agree (outside out (digestEnumToSize alg).toNat) m x.mem ∧ (x.err ≠ .ok → x.mem = m) ∧ (size = some (digestEnumToSize alg) → x.size = size) := by
  unfold digestAt at h
  obtain ⟨r, hr, h⟩ := ok_of_bind h
  cases h
  simp only [bury_memzero]
  unfold digestInternalAt at hr
  by_cases halg : digestEnumToSize alg = 0
  · have hi : digestInit DigestState.zero alg = none := by
      rcases alg_cases alg with ⟨a, rfl⟩ | ⟨-, -, h⟩
      · exact absurd halg (by cases a <;> decide)
      · exact h _
    rw [hi] at hr
    cases hr
    exact ⟨Agree.refl _ _, fun _ => rfl, fun _ => rfl⟩
  cases hi : digestInit DigestState.zero alg with
  | none =>
    rw [hi] at hr
    cases hr
    exact ⟨Agree.refl _ _, fun _ => rfl, fun _ => rfl⟩
  | some st =>
    rw [hi] at hr
    cases size with
    | none =>
      cases hr
      exact ⟨Agree.refl _ _, fun _ => rfl, fun h => nomatch h⟩
    | some sz =>
      simp only at hr
      by_cases hn : digestEnumToSize alg > sz ∨ out = none
      · rw [if_pos hn] at hr
        cases hr
        exact ⟨Agree.refl _ _, fun _ => rfl, fun h => h.symm⟩
      rw [if_neg hn] at hr
      unfold digestMessageAt at hr
      match msg with
      | none =>
        cases hr
        exact ⟨Agree.refl _ _, fun _ => rfl, fun _ => rfl⟩
      | some [] => cases hr
      | some (g :: gs) =>
        simp only at hr
        by_cases hl : g.count ≠ 0 ∧ g.list = none
        · rw [if_pos hl] at hr
          cases hr
          exact ⟨Agree.refl _ _, fun _ => rfl, fun _ => rfl⟩
        rw [if_neg hl] at hr
        obtain ⟨y, -, hr⟩ := ok_of_bind hr
        by_cases hy : y.1 = .ok
        · rw [if_pos hy] at hr
          obtain ⟨o, ho, hr⟩ := ok_of_bind hr
          cases hr
          obtain ⟨d, z, e1, e2, e3, e4⟩ := digestFinalizeAt_out alg halg y.2 _ o ho
          cases out with
          | none => cases e1
          | some a =>
            simp only [Option.map_some, Option.some.injEq] at e1
            subst e1
            refine ⟨?_, fun h => absurd rfl h, fun h => h.symm⟩
            rw [e4]
            have hz : 0 < (digestEnumToSize alg).toNat := by
              rcases Nat.eq_zero_or_pos (digestEnumToSize alg).toNat with h | h
              · exact absurd (UInt64.toNat_inj.1 h) halg
              · exact h
            exact agree_write m a _ _ (by rw [List.length_append]; omega) (by rw [List.drop_append_of_le_length (by omega), List.drop_of_length_le (by omega), List.nil_append]) e2 hz
        · rw [if_neg hy] at hr
          cases hr
          exact ⟨Agree.refl _ _, fun _ => rfl, fun _ => rfl⟩

/-! ## HMAC -/

/-- Everything outside of the `n` octets at `out` and the local arrays of `n20_hmac`. -/
def outsideHmac (out : Option Addr) (n : Nat) : Region → Nat → Prop := fun r i => outside out n r i ∧ r ≠ .key ∧ r ≠ .inner

theorem outside_local {Q : Region → Nat → Prop} (x : Addr) (n : Nat) (hq : ∀ i, ¬ Q x.region i) (r : Region) (i : Nat) (h : Q r i) : outside (some x) n r i := by
  intro a ha hc
  simp only [Option.some.injEq] at ha
  subst ha
  obtain ⟨rfl, -, -⟩ := hc
  exact hq i h

theorem hmacKeyAt_frame (m : Memory) (alg : UInt32) (key : MSlice) (block : UInt64) (out : Option Addr) (n : Nat) (x : MReply)
    (h : hmacKeyAt m alg key block (digestEnumToSize alg) = .ok x) :
    Agree (outsideHmac out n) m x.mem ∧ x.size = some (digestEnumToSize alg) := by
  unfold hmacKeyAt at h
  by_cases hb : key.size > block
  · rw [if_pos hb] at h
    obtain ⟨r, hr, h⟩ := ok_of_bind h
    cases h
    obtain ⟨f1, -, f3⟩ := digestAt_frame _ _ _ _ _ _ _ hr
    refine ⟨f1.mono fun r i hp => outside_local keyAddr _ (fun i h => h.2.1 rfl) r i hp, ?_⟩
    simp only [f3 rfl, Option.getD_some]
  · rw [if_neg hb] at h
    obtain ⟨K, -, h⟩ := ok_of_bind h
    cases h
    exact ⟨Agree.set _ _ _ fun i h => h.2.1 rfl, rfl⟩

theorem hmacBodyAt_frame (m : Memory) (alg : UInt32) (block : UInt64) (msg : Option MList) (out : Option Addr) (size : UInt64) (x : MReply)
    (h : hmacBodyAt m alg block (digestEnumToSize alg) msg out size = .ok x) :
    Agree (outsideHmac out (digestEnumToSize alg).toNat) m x.mem ∧ (x.err ≠ .ok → Agree (outsideHmac none 0) m x.mem) ∧
      (size = digestEnumToSize alg → x.size = some size) := by
  have hx : ∀ (m : Memory) (v : UInt8) (o : Option Addr) (n : Nat), Agree (outsideHmac o n) m (m.xorKey block v) := fun m v o n => Agree.set _ _ _ fun i h => h.2.1 rfl
  unfold hmacBodyAt at h
  simp only at h
  cases msg with
  | none =>
    cases h
    exact ⟨hx _ _ _ _, fun _ => hx _ _ _ _, fun _ => rfl⟩
  | some g =>
    simp only at h
    by_cases hl : g.count ≠ 0 ∧ g.list = none
    · rw [if_pos hl] at h
      cases h
      exact ⟨hx _ _ _ _, fun _ => hx _ _ _ _, fun _ => rfl⟩
    rw [if_neg hl] at h
    obtain ⟨r, hr, h⟩ := ok_of_bind h
    obtain ⟨f1, -, f3⟩ := digestAt_frame _ _ _ _ _ _ _ hr
    have hi : ∀ (o : Option Addr) (n : Nat), Agree (outsideHmac o n) m r.mem := fun o n =>
      (hx m 0x36 o n).trans (f1.mono fun r i hp => outside_local innerAddr _ (fun i h => h.2.2 rfl) r i hp)
    by_cases he : r.err = .ok
    · rw [if_pos he] at h
      unfold hmacOuterAt at h
      obtain ⟨g1, g2, g3⟩ := digestAt_frame _ _ _ _ _ _ _ h
      refine ⟨((hi _ _).trans (hx _ 0x6a _ _)).trans (g1.mono fun r i hp => hp.1), fun e => ?_, fun e => by rw [g3 (congrArg some e)]⟩
      rw [g2 e]
      exact (hi _ _).trans (hx _ 0x6a _ _)
    · rw [if_neg he] at h
      cases h
      exact ⟨hi _ _, fun _ => hi _ _, fun _ => rfl⟩

theorem hmacInternalAt_frame (m : Memory) (alg : UInt32) (key : MSlice) (msg : Option MList) (out : Option Addr) (size : Option UInt64) (x : MReply)
    (h : hmacInternalAt m alg key msg out size = .ok x) :
    Agree (outsideHmac out (digestEnumToSize alg).toNat) m x.mem ∧ (x.err ≠ .ok → Agree (outsideHmac none 0) m x.mem) ∧
      (size = some (digestEnumToSize alg) → x.size = size) := by
  unfold hmacInternalAt at h
  by_cases h1 : digestEnumToSize alg = 0
  · rw [if_pos h1] at h
    cases h
    exact ⟨Agree.refl _ _, fun _ => Agree.refl _ _, fun _ => rfl⟩
  rw [if_neg h1] at h
  cases size with
  | none =>
    cases h
    exact ⟨Agree.refl _ _, fun _ => Agree.refl _ _, fun _ => rfl⟩
  | some sz =>
    simp only at h
    by_cases h2 : key.addr = none ∧ key.size ≠ 0
    · rw [if_pos h2] at h
      cases h
      exact ⟨Agree.refl _ _, fun _ => Agree.refl _ _, fun _ => rfl⟩
    rw [if_neg h2] at h
    by_cases h3 : out = none ∨ sz < digestEnumToSize alg
    · rw [if_pos h3] at h
      cases h
      exact ⟨Agree.refl _ _, fun _ => Agree.refl _ _, fun h => h.symm⟩
    rw [if_neg h3] at h
    obtain ⟨r, hr, h⟩ := ok_of_bind h
    have hk := fun o n => hmacKeyAt_frame m alg key _ o n r hr
    by_cases he : r.err = .ok
    · rw [if_pos he, (hk none 0).2, Option.getD_some] at h
      obtain ⟨g1, g2, g3⟩ := hmacBodyAt_frame _ _ _ _ _ _ _ h
      exact ⟨(hk _ _).1.trans g1, fun e => (hk _ _).1.trans (g2 e), fun e => by rw [g3 (Option.some.inj e)]⟩
    · rw [if_neg he] at h
      cases h
      exact ⟨(hk _ _).1, fun _ => (hk _ _).1, fun _ => rfl⟩

/-- A function with a secret local array, which it wipes, changes what its body changes outside of the array. -/
theorem withSecret_frame {P Q : Region → Nat → Prop} (m : Memory) (r : Region) (hr : r ≠ .stack) (init : Bytes) (body : Memory → Except UB MReply)
    (hb : ∀ m' x, body m' = .ok x → Agree Q m' x.mem ∧ x.mem r = memzero (x.mem r)) (hpq : ∀ s i, P s i → s ≠ r → Q s i) (x : MReply)
    (h : m.withSecret r init body = .ok x) : Agree P m x.mem ∧ ∃ y, body (m.set r init) = .ok y ∧ x.err = y.err ∧ x.size = y.size ∧ x.mem = y.mem.set r (m r) := by
  unfold Memory.withSecret at h
  obtain ⟨y, hy, h⟩ := ok_of_bind h
  cases h
  obtain ⟨ha, hz⟩ := hb _ _ hy
  have hbury : y.mem.bury (y.mem r) = y.mem := by rw [hz]; exact bury_memzero _ _
  refine ⟨?_, y, hy, rfl, rfl, by rw [hbury]⟩
  intro s i hp
  simp only [hbury]
  by_cases hs : s = r
  · subst hs
    rw [Memory.set_same]
  · rw [Memory.set_other _ _ _ _ hs, ha s i (hpq s i hp hs), Memory.set_other _ _ _ _ hs]

theorem memzero_memzero (b : Bytes) : memzero (memzero b) = memzero b := by simp [memzero]

theorem wipe_wiped (m : Memory) (r : Region) : m.wipe r r = memzero (m.wipe r r) := by rw [wipe_same, memzero_memzero]

theorem agree_all {m m' : Memory} (h : Agree (outside none 0) m m') : m' = m := by
  funext r
  exact List.ext_getElem? fun i => h r i fun a ha => nomatch ha

/-- `n20_hmac` changes its output only, and that only if it succeeds. -/
theorem hmacAt_frame (m : Memory) (alg : UInt32) (key : MSlice) (msg : Option MList) (out : Option Addr) (size : Option UInt64) (x : MReply)
    (h : hmacAt m alg key msg out size = .ok x) :
    Agree (outside out (digestEnumToSize alg).toNat) m x.mem ∧ (x.err ≠ .ok → x.mem = m) ∧ (size = some (digestEnumToSize alg) → x.size = size) := by
  rw [hmacAt_local] at h
  cases hy : hmacInternalAt (m.hmacLocals (List.replicate 128 0) (List.replicate 64 0)) alg key msg out size with
  | error e => rw [hy] at h; cases h
  | ok y =>
    rw [hy] at h
    cases h
    obtain ⟨f1, f2, f3⟩ := hmacInternalAt_frame _ _ _ _ _ _ _ hy
    have hfor : ∀ (o : Option Addr) (n : Nat), Agree (outsideHmac o n) (m.hmacLocals (List.replicate 128 0) (List.replicate 64 0)) y.mem →
        Agree (outside o n) m (MReply.forget m y).mem := by
      intro o n ha r i hp
      simp only [MReply.forget]
      by_cases hk : r = .key
      · subst hk; rw [Memory.set_same]
      rw [Memory.set_other _ _ _ _ hk]
      by_cases hi : r = .inner
      · subst hi; rw [Memory.set_same]
      rw [Memory.set_other _ _ _ _ hi, ha r i ⟨hp, hk, hi⟩, hmacLocals_other _ _ _ _ ⟨hk, hi⟩]
    exact ⟨hfor _ _ f1, fun e => agree_all (hfor _ _ (f2 e)), f3⟩

theorem extractAt_frame (m : Memory) (alg : UInt32) (ikm salt : MSlice) (out : Option Addr) (size : Option UInt64) (x : MReply)
    (h : extractAt m alg ikm salt out size = .ok x) :
    Agree (outside out (digestEnumToSize alg).toNat) m x.mem ∧ (x.err ≠ .ok → x.mem = m) ∧ (size = some (digestEnumToSize alg) → x.size = size) := by
  unfold extractAt at h
  by_cases h1 : digestEnumToSize alg = 0
  · rw [if_pos h1] at h
    cases h
    exact ⟨Agree.refl _ _, fun _ => rfl, fun _ => rfl⟩
  rw [if_neg h1] at h
  by_cases h2 : ikm.addr = none ∧ ikm.size ≠ 0
  · rw [if_pos h2] at h
    cases h
    exact ⟨Agree.refl _ _, fun _ => rfl, fun _ => rfl⟩
  rw [if_neg h2] at h
  by_cases h3 : salt.addr = none ∧ salt.size ≠ 0
  · rw [if_pos h3] at h
    cases h
    exact ⟨Agree.refl _ _, fun _ => rfl, fun _ => rfl⟩
  rw [if_neg h3] at h
  cases size with
  | none =>
    cases h
    exact ⟨Agree.refl _ _, fun _ => rfl, fun _ => rfl⟩
  | some sz =>
    simp only at h
    by_cases h4 : sz < digestEnumToSize alg ∨ out = none
    · rw [if_pos h4] at h
      cases h
      exact ⟨Agree.refl _ _, fun _ => rfl, fun h => h.symm⟩
    rw [if_neg h4] at h
    exact hmacAt_frame _ _ _ _ _ _ _ h

/-! ## HKDF -/

/-- Everything outside of the `n` octets at `out` and the counter of `n20_hkdf_expand`. -/
def outsideExpand (out : Addr) (n : Nat) : Region → Nat → Prop := fun r i => outside (some out) n r i ∧ r ≠ .counter

theorem outside_part (out : Addr) (L : Nat) (a : Addr) (n : Nat) (hr : a.region = out.region) (h1 : out.off ≤ a.off) (h2 : a.off + n ≤ out.off + L) (r : Region) (i : Nat)
    (h : outside (some out) L r i) : outside (some a) n r i := by
  intro x hx hc
  simp only [Option.some.injEq] at hx
  subst hx
  obtain ⟨c1, c2, c3⟩ := hc
  exact h out rfl ⟨c1.trans hr, by omega, by omega⟩

/-- Where the loop of `n20_hkdf_expand` is. -/
structure ExpandPlace (alg : UInt32) (out : Addr) (L : Nat) (s : ExpandAt) : Prop where
  region : s.out.region = out.region
  start : out.off ≤ s.out.off
  rest : s.out.off + s.keyOctets.toNat = out.off + L
  size : s.digestSize = digestEnumToSize alg

theorem expandStepAt_frame (alg : UInt32) (prk info : MSlice) (out : Addr) (L : Nat) (s s' : ExpandAt) (hp : ExpandPlace alg out L s) (hk : s.keyOctets ≥ s.digestSize)
    (h : expandStepAt alg prk info s = .ok s') : Agree (outsideExpand out L) s.mem s'.mem ∧ ExpandPlace alg out L s' := by
  unfold expandStepAt at h
  obtain ⟨r, hr, h⟩ := ok_of_bind h
  cases h
  obtain ⟨f1, -, f3⟩ := hmacAt_frame _ _ _ _ _ _ _ hr
  have hsz : r.size = some s.digestSize := f3 (by rw [hp.size])
  have hle := UInt64.le_iff_toNat_le.1 hk
  have hrest := hp.rest
  have hstart := hp.start
  refine ⟨?_, hp.region, ?_, ?_, ?_⟩
  · refine (f1.mono fun x i hx => ?_).trans (Agree.set _ _ _ fun i hx => hx.2 rfl)
    refine outside_part out L s.out _ hp.region hp.start ?_ x i hx.1
    rw [← hp.size]
    omega
  · simp only [hsz, Option.getD_some]
    omega
  · simp only [hsz, Option.getD_some]
    rw [UInt64.toNat_sub_of_le _ _ hk]
    omega
  · simp only [hsz, Option.getD_some]
    exact hp.size

theorem expandLoopAt_frame (alg : UInt32) (prk info : MSlice) (out : Addr) (L : Nat) (fuel : Nat) : ∀ (s s' : ExpandAt), ExpandPlace alg out L s →
    expandLoopAt alg prk info fuel s = .ok s' → Agree (outsideExpand out L) s.mem s'.mem ∧ ExpandPlace alg out L s' := by
  induction fuel with
  | zero => intro s s' _ h; cases h
  | succ fuel ih =>
    intro s s' hp h
    rw [expandLoopAt] at h
    by_cases hk : s.keyOctets ≥ s.digestSize
    · rw [if_pos hk] at h
      obtain ⟨s1, h1, h⟩ := ok_of_bind h
      obtain ⟨a1, p1⟩ := expandStepAt_frame alg prk info out L s s1 hp hk h1
      obtain ⟨a2, p2⟩ := ih s1 s' p1 h
      exact ⟨a1.trans a2, p2⟩
    · rw [if_neg hk] at h
      cases h
      exact ⟨Agree.refl _ _, hp⟩

theorem expandLastAt_frame (m : Memory) (alg : UInt32) (prk info prev : MSlice) (keyOctets : UInt64) (out : Addr) (hk : 0 < keyOctets.toNat) (x : MReply)
    (h : expandLastAt m alg prk info prev (digestEnumToSize alg) keyOctets out = .ok x) :
    Agree (fun r i => outside (some out) keyOctets.toNat r i ∧ r ≠ .block) m x.mem ∧ x.mem .block = memzero (x.mem .block) := by
  unfold expandLastAt at h
  obtain ⟨r, hr, h⟩ := ok_of_bind h
  obtain ⟨f1, -, -⟩ := hmacAt_frame _ _ _ _ _ _ _ hr
  have f1' : Agree (fun r i => outside (some out) keyOctets.toNat r i ∧ r ≠ .block) m r.mem := f1.mono fun r i hp =>
    outside_local (Q := fun r i => outside (some out) keyOctets.toNat r i ∧ r ≠ .block) blockAddr _ (fun i h => h.2 rfl) r i hp
  by_cases he : r.err = .ok
  · rw [if_pos he] at h
    obtain ⟨b, hb, h⟩ := ok_of_bind h
    cases h
    refine ⟨(f1'.trans ?_).trans (Agree.set _ _ _ fun i hx => hx.2 rfl), wipe_wiped (r.mem.store out b) .block⟩
    simp only [memcpy] at hb
    split at hb
    · cases hb
    rename_i hsrc
    split at hb
    · cases hb
    rename_i hdst
    cases hb
    have t0 : (0 : UInt64).toNat = 0 := rfl
    simp only [t0, Nat.zero_add] at hdst
    refine (agree_write r.mem out _ keyOctets.toNat ?_ ?_ (by omega) hk).mono fun r i hx => hx.1
    · simp only [t0, List.take_zero, List.nil_append, Nat.zero_add, List.length_append, List.length_take]
      omega
    · simp only [t0, List.take_zero, List.nil_append, Nat.zero_add]
      rw [List.drop_append_of_le_length (by rw [List.length_take]; omega), List.drop_of_length_le (by rw [List.length_take]; omega), List.nil_append]
  · rw [if_neg he] at h
    cases h
    exact ⟨f1'.trans (Agree.set _ _ _ fun i hx => hx.2 rfl), wipe_wiped r.mem .block⟩

theorem hkdfExpandAt_frame (m : Memory) (alg : UInt32) (prk info : MSlice) (L : UInt64) (out : Option Addr) (x : MReply)
    (h : hkdfExpandAt m alg prk info L out = .ok x) : Agree (outside out L.toNat) m x.mem := by
  unfold hkdfExpandAt at h
  by_cases h1 : digestEnumToSize alg = 0
  · rw [if_pos h1] at h; cases h; exact Agree.refl _ _
  rw [if_neg h1] at h
  by_cases h2 : prk.addr = none ∧ prk.size ≠ 0
  · rw [if_pos h2] at h; cases h; exact Agree.refl _ _
  rw [if_neg h2] at h
  by_cases h3 : info.addr = none ∧ info.size ≠ 0
  · rw [if_pos h3] at h; cases h; exact Agree.refl _ _
  rw [if_neg h3] at h
  by_cases h4 : L = 0
  · rw [if_pos h4] at h; cases h; exact Agree.refl _ _
  rw [if_neg h4] at h
  cases out with
  | none => cases h; exact Agree.refl _ _
  | some out =>
    simp only [Memory.withLocal] at h
    obtain ⟨y, hy, h⟩ := ok_of_bind h
    cases h
    obtain ⟨s, hs, hy⟩ := ok_of_bind hy
    obtain ⟨a1, p1⟩ := expandLoopAt_frame alg prk info out L.toNat _ _ s ⟨rfl, Nat.le_refl _, rfl, rfl⟩ hs
    have key : Agree (outsideExpand out L.toNat) s.mem y.mem := by
      unfold expandRestAt at hy
      by_cases hk : s.keyOctets > 0
      · rw [if_pos hk, p1.size] at hy
        have hk' : 0 < s.keyOctets.toNat := UInt64.lt_iff_toNat_lt.1 hk
        refine (withSecret_frame (P := outsideExpand out L.toNat) s.mem .block (by decide) _ _
          (fun m' x hx => expandLastAt_frame m' alg prk info s.prev s.keyOctets s.out hk' x hx) ?_ y hy).1
        intro r i hp hb
        have hrest := p1.rest
        exact ⟨outside_part out L.toNat s.out _ p1.region p1.start (by omega) r i hp.1, hb⟩
      · rw [if_neg hk] at hy
        cases hy
        exact Agree.refl _ _
    intro r i hp
    simp only
    by_cases hc : r = .counter
    · subst hc; rw [Memory.set_same]
    · rw [Memory.set_other _ _ _ _ hc, (a1.trans key) r i ⟨hp, hc⟩]
      simp only
      rw [Memory.set_other _ _ _ _ hc]

theorem hkdfAt_frame (m : Memory) (alg : UInt32) (ikm salt info : MSlice) (L : UInt64) (out : Option Addr) (x : MReply)
    (h : hkdfAt m alg ikm salt info L out = .ok x) : Agree (outside out L.toNat) m x.mem := by
  unfold hkdfAt at h
  by_cases h1 : digestEnumToSize alg = 0
  · rw [if_pos h1] at h; cases h; exact Agree.refl _ _
  rw [if_neg h1] at h
  by_cases h2 : ikm.addr = none ∧ ikm.size ≠ 0
  · rw [if_pos h2] at h; cases h; exact Agree.refl _ _
  rw [if_neg h2] at h
  by_cases h3 : salt.addr = none ∧ salt.size ≠ 0
  · rw [if_pos h3] at h; cases h; exact Agree.refl _ _
  rw [if_neg h3] at h
  by_cases h4 : info.addr = none ∧ info.size ≠ 0
  · rw [if_pos h4] at h; cases h; exact Agree.refl _ _
  rw [if_neg h4] at h
  refine (withSecret_frame (P := outside out L.toNat) (Q := fun r i => outside out L.toNat r i ∧ r ≠ .prk) m .prk (by decide) _ _ ?_ (fun r i hp hr => ⟨hp, hr⟩) x h).1
  intro m' y hy
  unfold hkdfStepsAt at hy
  obtain ⟨r, hr, hy⟩ := ok_of_bind hy
  have f1 : Agree (fun r i => outside out L.toNat r i ∧ r ≠ .prk) m' r.mem := (extractAt_frame _ _ _ _ _ _ _ hr).1.mono fun r i hp =>
    outside_local (Q := fun r i => outside out L.toNat r i ∧ r ≠ .prk) prkAddr _ (fun i h => h.2 rfl) r i hp
  have hw : ∀ m : Memory, Agree (fun r i => outside out L.toNat r i ∧ r ≠ .prk) m (m.wipe .prk) := fun m => Agree.set _ _ _ fun i hx => hx.2 rfl
  by_cases he : r.err = .ok
  · rw [if_pos he] at hy
    obtain ⟨z, hz, hy⟩ := ok_of_bind hy
    cases hy
    exact ⟨(f1.trans ((hkdfExpandAt_frame _ _ _ _ _ _ _ hz).mono fun r i hp => hp.1)).trans (hw _), wipe_wiped z.mem .prk⟩
  · rw [if_neg he] at hy
    cases hy
    exact ⟨f1.trans (hw _), wipe_wiped r.mem .prk⟩

end Nat20

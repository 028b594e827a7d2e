import Verif.Props.Reboot
import Verif.Spec.Separation
/-!
# C68: which keys are related

Of two derived keys one should not follow from the other, unless the secret, the context and the type agree.  This holds for different contexts, and for different secrets of
one length up to a hash block (up to collisions of the hash).  It does not hold for different types, nor for secrets of different lengths.
-/

namespace Nat20

open Fips Pki

/-- One block is enough for 32 octets. -/
theorem derivedOctets_eq (cdi context : Bytes) : derivedOctets cdi context = (hmac .sha512 cdi (context ++ [1])).take 32 := by
  have h : hkdfExpand .sha512 cdi context 32 = some ((hkdfBlocks .sha512 cdi context 1).take 32) := by
    unfold hkdfExpand
    rw [if_pos (by decide)]
    rfl
  unfold derivedOctets
  rw [h, Option.getD_some]
  congr 1
  show ([hkdfT .sha512 cdi context (0 + 1)]).flatten = _
  rw [List.flatten_cons, List.flatten_nil, List.append_nil]
  unfold hkdfT hkdfT
  rw [List.nil_append]
  rfl

theorem hmac_eq (K text : Bytes) : hmac .sha512 K text = sha2 .sha512 (outerMessage K text) := rfl

theorem hmac512_length (K text : Bytes) : (hmac .sha512 K text).length = 64 := hmac_length _ _ _

theorem keyBlock_short (cdi : Bytes) (h : cdi.length ≤ 128) : hmacKeyBlock .sha512 cdi = cdi ++ List.replicate (128 - cdi.length) 0 := by
  unfold hmacKeyBlock
  have : ¬ cdi.length > Alg.block .sha512 := by show ¬ cdi.length > 128; omega
  simp only [if_neg this]
  rfl

theorem keyBlock_long (cdi : Bytes) (h : 128 < cdi.length) : hmacKeyBlock .sha512 cdi = hmacKeyBlock .sha512 (sha2 .sha512 cdi) := by
  have hl : (sha2 .sha512 cdi).length = 64 := sha2_length _ _
  have h1 : cdi.length > Alg.block .sha512 := h
  rw [keyBlock_short (sha2 .sha512 cdi) (by omega)]
  unfold hmacKeyBlock
  simp only [if_pos h1]
  rfl

theorem map_xor_inj (m : UInt8) (x y : Bytes) (h : x.map (· ^^^ m) = y.map (· ^^^ m)) : x = y := by
  have := congrArg (List.map (· ^^^ m)) h
  have id : ∀ z : Bytes, (z.map (· ^^^ m)).map (· ^^^ m) = z := by
    intro z
    rw [List.map_map]
    have : ((· ^^^ m) ∘ (· ^^^ m)) = (id : UInt8 → UInt8) := by
      funext u
      show u ^^^ m ^^^ m = u
      rw [UInt8.xor_assoc, UInt8.xor_self, UInt8.xor_zero]
    rw [this, List.map_id]
  rwa [id, id] at this

theorem derived_same_block {cdi cdi' : Bytes} (h : hmacKeyBlock .sha512 cdi = hmacKeyBlock .sha512 cdi') (context : Bytes) : derivedOctets cdi context = derivedOctets cdi' context := by
  rw [derivedOctets_eq, derivedOctets_eq]
  unfold hmac
  rw [h]

/-- HMAC is injective up to collisions, for keys of one length. -/
theorem hmac_inj {K K' text text' : Bytes} (hlen : K.length = K'.length) (hmax : K.length ≤ 128) (h : (hmac .sha512 K text).take 32 = (hmac .sha512 K' text').take 32) :
    (K = K' ∧ text = text') ∨ HmacCollision K text K' text' := by
  by_cases ho : outerMessage K text = outerMessage K' text'
  · have hb : (hmacKeyBlock .sha512 K).length = (hmacKeyBlock .sha512 K').length := by
      rw [keyBlock_short _ hmax, keyBlock_short _ (by omega), List.length_append, List.length_append, List.length_replicate, List.length_replicate, hlen]
    obtain ⟨h1, h2⟩ := List.append_inj ho (by rw [List.length_map, List.length_map, hb])
    have h1 := map_xor_inj _ _ _ h1
    have hK : K = K' := by
      rw [keyBlock_short _ hmax, keyBlock_short _ (by omega)] at h1
      exact (List.append_inj h1 hlen).1
    by_cases hi : innerMessage K text = innerMessage K' text'
    · left
      refine ⟨hK, ?_⟩
      subst hK
      exact List.append_cancel_left hi
    · exact .inr (.inl ⟨hi, by rw [h2]⟩)
  · exact .inr (.inr ⟨ho, h⟩)

/-- **C68**, for different types: violated.  The Ed25519 private key derived in a context is the CDI derived in this context. -/
theorem C68_ed25519_is_cdi (lib lib' : Lib) (hlib : lib.Standard) (hlib' : lib'.Standard) (cdi context : Bytes) (h h' : Nat) (w w' : World)
    (hk : DerivedKey lib cdi context 4 h w) (hk' : DerivedKey lib' cdi context 3 h' w') :
    ∃ secret, Live w h ⟨4, .inl secret⟩ ∧ Live w' h' ⟨3, .inr (.ed25519 secret)⟩ := by
  obtain ⟨_, ⟨t, b⟩, hl, ht, hd⟩ := hk.live hlib
  obtain ⟨_, ⟨t', b'⟩, hl', ht', hd'⟩ := hk'.live hlib'
  simp only at ht ht' hd hd'
  subst ht ht'
  refine ⟨derivedOctets cdi context, ?_, ?_⟩
  · rcases hd with ⟨_, rfl⟩ | ⟨h, _⟩ | ⟨_, _, _, h, _⟩
    · exact hl
    · simp at h
    · simp [curveOf] at h
  · rcases hd' with ⟨h, _⟩ | ⟨_, rfl⟩ | ⟨_, _, _, h, _⟩
    · simp at h
    · exact hl'
    · simp [curveOf] at h

/-- **C68**, for different types: violated.  The EC private key derived in a context is the one that RFC 6979 computes from the CDI derived in this context, with nothing else. -/
theorem C68_ec_from_cdi (lib lib' : Lib) (hlib : lib.Standard) (hlib' : lib'.Standard) (cdi context : Bytes) (type : UInt32) (c : Curve) (hc : curveOf type = some c) (h h' : Nat) (w w' : World)
    (hk : DerivedKey lib cdi context 4 h w) (hk' : DerivedKey lib' cdi context type h' w') :
    ∃ secret d n, Live w h ⟨4, .inl secret⟩ ∧ Live w' h' ⟨type, .inr (.ec c d)⟩ ∧ IsNonce .sha512 c.order secret n d := by
  obtain ⟨_, ⟨t, b⟩, hl, ht, hd⟩ := hk.live hlib
  obtain ⟨_, ⟨t', b'⟩, hl', ht', hd'⟩ := hk'.live hlib'
  simp only at ht ht' hd hd'
  subst ht ht'
  have h1 : Live w h ⟨4, .inl (derivedOctets cdi context)⟩ := by
    rcases hd with ⟨_, rfl⟩ | ⟨h, _⟩ | ⟨_, _, _, h, _⟩
    · exact hl
    · simp at h
    · simp [curveOf] at h
  rcases hd' with ⟨h, _⟩ | ⟨h, _⟩ | ⟨c', d, n, hc', rfl, hn⟩
  · subst h; simp [curveOf] at hc
  · subst h; simp [curveOf] at hc
  · rw [hc] at hc'
    cases hc'
    exact ⟨_, d, n, h1, hl', hn⟩

theorem derived_same_octets {cdi cdi' context : Bytes} (h : derivedOctets cdi context = derivedOctets cdi' context) {type : UInt32} {k : BsslKey} :
    IsDerived cdi context type k ↔ IsDerived cdi' context type k := by
  unfold IsDerived
  rw [h]

/-- **C68**, for secrets of different lengths: violated.  Zeros at the end of a secret of up to 128 octets change nothing. -/
theorem C68_zero_padding (lib lib' : Lib) (hlib : lib.Standard) (hlib' : lib'.Standard) (cdi context : Bytes) (n : Nat) (hn : cdi.length + n ≤ 128) (type : UInt32) (h h' : Nat) (w w' : World)
    (hk : DerivedKey lib cdi context type h w) (hk' : DerivedKey lib' (cdi ++ List.replicate n 0) context type h' w') : ∃ k, Live w h k ∧ Live w' h' k := by
  obtain ⟨_, k, hl, hd⟩ := hk.live hlib
  obtain ⟨_, k', hl', hd'⟩ := hk'.live hlib'
  have hb : hmacKeyBlock .sha512 cdi = hmacKeyBlock .sha512 (cdi ++ List.replicate n 0) := by
    rw [keyBlock_short _ (by omega), keyBlock_short _ (by rw [List.length_append, List.length_replicate]; exact hn), List.append_assoc, List.replicate_append_replicate,
      List.length_append, List.length_replicate]
    congr 2
    omega
  have := derived_unique ((derived_same_octets (derived_same_block hb context)).1 hd) hd'
  subst this
  exact ⟨k, hl, hl'⟩

/-- **C68**, for secrets of different lengths: violated.  A secret of more than 128 octets and its hash are the same. -/
theorem C68_long_secret (lib lib' : Lib) (hlib : lib.Standard) (hlib' : lib'.Standard) (cdi context : Bytes) (hn : 128 < cdi.length) (type : UInt32) (h h' : Nat) (w w' : World)
    (hk : DerivedKey lib cdi context type h w) (hk' : DerivedKey lib' (sha2 .sha512 cdi) context type h' w') : ∃ k, Live w h k ∧ Live w' h' k := by
  obtain ⟨_, k, hl, hd⟩ := hk.live hlib
  obtain ⟨_, k', hl', hd'⟩ := hk'.live hlib'
  have := derived_unique ((derived_same_octets (derived_same_block (keyBlock_long cdi hn) context)).1 hd) hd'
  subst this
  exact ⟨k, hl, hl'⟩

theorem secret_of {w : World} {h : Nat} {k : BsslKey} {cdi context : Bytes} {type : UInt32} (hl : Live w h k) (hd : IsDerived cdi context type k) (s : Bytes) (hs : HasSecret w h s) :
    s = derivedOctets cdi context := by
  obtain ⟨ht, hd⟩ := hd
  unfold HasSecret Live at hs
  unfold Live at hl
  rw [hl] at hs
  rcases hs with hs | hs <;> simp only [Option.some.injEq] at hs <;> subst hs <;> rcases hd with ⟨_, h⟩ | ⟨_, h⟩ | ⟨_, _, _, _, h, _⟩ <;> simp at h
  · exact h
  · exact h

/-- **C68_partial.**  Two CDIs or Ed25519 keys that were derived (in any two histories) from secrets of the same length of up to 128 octets have the same secret only if they were
derived from the same secret in the same context, or if messages that were hashed for them collide.  Missing: EC keys and other keys, and secrets of different lengths (see above: it is
not true for them). -/
theorem C68_partial (lib lib' : Lib) (hlib : lib.Standard) (hlib' : lib'.Standard) (cdi cdi' context context' : Bytes) (hlen : cdi.length = cdi'.length) (hmax : cdi.length ≤ 128)
    (type type' : UInt32) (h h' : Nat) (w w' : World) (hk : DerivedKey lib cdi context type h w) (hk' : DerivedKey lib' cdi' context' type' h' w')
    (secret : Bytes) (hs : HasSecret w h secret) (hs' : HasSecret w' h' secret) :
    (cdi = cdi' ∧ context = context') ∨ HmacCollision cdi (context ++ [1]) cdi' (context' ++ [1]) := by
  obtain ⟨_, k, hl, hd⟩ := hk.live hlib
  obtain ⟨_, k', hl', hd'⟩ := hk'.live hlib'
  have e := secret_of hl hd secret hs
  have e' := secret_of hl' hd' secret hs'
  rw [e, derivedOctets_eq, derivedOctets_eq] at e'
  rcases hmac_inj hlen hmax e' with ⟨h1, h2⟩ | h
  · exact .inl ⟨h1, List.append_cancel_right h2⟩
  · exact .inr h

/-! ### EC keys -/

theorem order_bits (c : Curve) : binaryLength c.order = (match c with | .p256 => 256 | .p384 => 384) := by
  have h1 := binaryLength_lt c.order
  have h2 := binaryLength_le c.order (by cases c <;> decide)
  generalize binaryLength c.order = k at h1 h2
  have up : ∀ n, 2 ^ n ≤ c.order → n < k := fun n hn => (Nat.pow_lt_pow_iff_right (by omega)).1 (Nat.lt_of_le_of_lt hn h1)
  have down : ∀ n, 2 * c.order < 2 ^ n → k < n := fun n hn => (Nat.pow_lt_pow_iff_right (by omega)).1 (Nat.lt_of_le_of_lt h2 hn)
  cases c
  · have a := up 255 (by decide)
    have b := down 257 (by rw [Nat.pow_succ]; decide)
    show k = 256
    omega
  · have a := up 383 (by decide)
    have b := down 385 (by decide)
    show k = 384
    omega

theorem curve_bits (c : Curve) : ∃ m, 32 ≤ m ∧ m ≤ 64 ∧ binaryLength c.order = 8 * m := by
  rw [order_bits]
  cases c
  · exact ⟨32, by omega, by omega, rfl⟩
  · exact ⟨48, by omega, by omega, rfl⟩

/-- One block is enough for a candidate. -/
theorem octets_eq (c : Curve) (K V : Bytes) : rfcOctets .sha512 c.order (K, V) = (hmac .sha512 K V, hmac .sha512 K V) := by
  obtain ⟨m, h1, h2, h3⟩ := curve_bits c
  unfold rfcOctets
  rw [h3]
  obtain ⟨j, hj⟩ : ∃ j, 8 * m = j + 2 := ⟨8 * m - 2, by omega⟩
  rw [hj, rfcFill, if_pos (by simp), rfcFill, if_neg (by rw [List.nil_append, hmac512_length]; omega)]
  rfl

theorem fromBE_inj : ∀ (a b : Bytes), a.length = b.length → Der.fromBE a = Der.fromBE b → a = b := by
  intro a
  induction a using Der.rev_ind with
  | nil => intro b h _; exact (List.length_eq_zero_iff.1 h.symm).symm
  | snoc l x ih =>
    intro b h e
    rcases List.eq_nil_or_concat b with rfl | ⟨b, y, rfl⟩
    · simp at h
    · rw [List.concat_eq_append] at h e ⊢
      rw [Der.fromBE_append, Der.fromBE_append] at e
      have hx := x.toNat_lt
      have hy := y.toNat_lt
      rw [ih b (by simpa using h) (by omega), UInt8.toNat_inj.1 (by omega : x.toNat = y.toNat)]

theorem bits2int_take (m : Nat) (b : Bytes) (hb : b.length = 64) (hm : m ≤ 64) : bits2int (8 * m) b = Der.fromBE (b.take m) := by
  unfold bits2int
  have e : Der.fromBE b = Der.fromBE (b.take m) * 256 ^ (b.drop m).length + Der.fromBE (b.drop m) := by
    conv => lhs; rw [← List.take_append_drop m b]
    exact fromBE_append _ _
  have hl : (b.drop m).length = 64 - m := by rw [List.length_drop, hb]
  have hlt := fromBE_lt (b.drop m)
  have h2 : 2 ^ (8 * b.length - 8 * m) = 256 ^ (b.drop m).length := by
    rw [hl, hb, show (256 : Nat) = 2 ^ 8 from rfl, ← Nat.pow_mul]
    congr 1
    omega
  rw [h2, e, Nat.mul_comm, Nat.mul_add_div (Nat.pow_pos (by omega)), Nat.div_eq_of_lt hlt, Nat.add_zero]

/-- There is a collision among the computations for the two keys. -/
def Collides (q : Nat) (cdi context cdi' context' : Bytes) : Prop :=
  ∃ a b, HmacCall q cdi context a ∧ HmacCall q cdi' context' b ∧ HmacCollision a.1 a.2 b.1 b.2

theorem state_length (c : Curve) (x : Bytes) (n : Nat) : (rfcState .sha512 c.order x n).1.length = 64 ∧ (rfcState .sha512 c.order x n).2.length = 64 := by
  cases n with
  | zero => exact ⟨hmac512_length _ _, hmac512_length _ _⟩
  | succ n => exact ⟨hmac512_length _ _, hmac512_length _ _⟩

/-- `K` and `V` after a rejected candidate. -/
theorem state_succ (c : Curve) (x : Bytes) (n : Nat) : rfcState .sha512 c.order x (n + 1) =
    (let K := (rfcState .sha512 c.order x n).1
     let V := hmac .sha512 K (rfcState .sha512 c.order x n).2
     (hmac .sha512 K (V ++ [0x00]), hmac .sha512 (hmac .sha512 K (V ++ [0x00])) V)) := by
  rw [rfcState]
  rw [show rfcState .sha512 c.order x n = ((rfcState .sha512 c.order x n).1, (rfcState .sha512 c.order x n).2) from rfl]
  simp only [octets_eq]

/-- `K` and `V` at the beginning. -/
theorem start_shape (x : Bytes) : ∃ K1 V1, K1.length = 64 ∧ V1.length = 64 ∧ rfcStart .sha512 x = (hmac .sha512 K1 (V1 ++ [0x01] ++ x), hmac .sha512 (hmac .sha512 K1 (V1 ++ [0x01] ++ x)) V1) ∧
    (K1, V1 ++ [0x01] ++ x) ∈ startCalls x ∧ (hmac .sha512 K1 (V1 ++ [0x01] ++ x), V1) ∈ startCalls x :=
  ⟨_, _, hmac512_length _ _, hmac512_length _ _, rfl, .tail _ (.tail _ (.head _)), .tail _ (.tail _ (.tail _ (.head _)))⟩

/-- `K` and `V` after a rejected candidate. -/
theorem next_shape (c : Curve) (x : Bytes) (n : Nat) : ∃ K V V1, K.length = 64 ∧ V1.length = 64 ∧ rfcState .sha512 c.order x n = (K, V) ∧ V1 = hmac .sha512 K V ∧
    rfcState .sha512 c.order x (n + 1) = (hmac .sha512 K (V1 ++ [0x00]), hmac .sha512 (hmac .sha512 K (V1 ++ [0x00])) V1) ∧
    (K, V) ∈ attemptCalls K V ∧ (K, V1 ++ [0x00]) ∈ attemptCalls K V ∧ (hmac .sha512 K (V1 ++ [0x00]), V1) ∈ attemptCalls K V :=
  ⟨_, _, _, (state_length c x n).1, hmac512_length _ _, rfl, rfl, state_succ c x n, .head _, .tail _ (.head _), .tail _ (.tail _ (.head _))⟩

/-- Generators in the same state started with the same octets. -/
theorem state_inj (c : Curve) (cdi context cdi' context' : Bytes) : ∀ n n', rfcState .sha512 c.order (derivedOctets cdi context) n = rfcState .sha512 c.order (derivedOctets cdi' context') n' →
    derivedOctets cdi context = derivedOctets cdi' context' ∨ Collides c.order cdi context cdi' context' := by
  have inj : ∀ a b, HmacCall c.order cdi context a → HmacCall c.order cdi' context' b → a.1.length = 64 → b.1.length = 64 → hmac .sha512 a.1 a.2 = hmac .sha512 b.1 b.2 →
      a = b ∨ Collides c.order cdi context cdi' context' := by
    intro a b ha hb h1 h2 e
    rcases hmac_inj (by omega) (by omega) (congrArg (List.take 32) e) with ⟨e1, e2⟩ | h
    · exact .inl (Prod.ext e1 e2)
    · exact .inr ⟨a, b, ha, hb, h⟩
  have start : ∀ (cdi context : Bytes) a, a ∈ startCalls (derivedOctets cdi context) → HmacCall c.order cdi context a := fun _ _ _ h => .inr (.inl h)
  have attempt : ∀ (cdi context : Bytes) n a, a ∈ attemptCalls (rfcState .sha512 c.order (derivedOctets cdi context) n).1 (rfcState .sha512 c.order (derivedOctets cdi context) n).2 →
      HmacCall c.order cdi context a := fun _ _ n _ h => .inr (.inr ⟨n, h⟩)
  have l64 : ∀ K text, (hmac .sha512 K text).length = 64 := hmac512_length
  have cut : ∀ (V V' x y : Bytes) (b b' : UInt8), V.length = V'.length → V ++ [b] ++ x = V' ++ [b'] ++ y → b = b' ∧ x = y := by
    intro V V' x y b b' hl h
    rw [List.append_assoc, List.append_assoc] at h
    have := (List.append_inj h hl).2
    simp only [List.singleton_append, List.cons.injEq] at this
    exact this
  -- the start against a later state: the octet after V differs
  have mixed : ∀ (K1 V1 K V x : Bytes) (a1 a2 : Bytes × Bytes), V1.length = V.length → a1 = (K1, V1 ++ [0x01] ++ x) → a2 = (K, V ++ [0x00]) → a1 ≠ a2 := by
    intro K1 V1 K V x a1 a2 hl e1 e2 h
    rw [e1, e2] at h
    have h2 := (Prod.mk.inj h).2
    rw [show V ++ [0x00] = V ++ [0x00] ++ [] from (List.append_nil _).symm] at h2
    exact absurd (cut _ _ _ _ _ _ hl h2).1 (by decide)
  intro n
  induction n with
  | zero =>
    intro n' e
    obtain ⟨K1, V1, hK1, hV1, est, hm1, hm2⟩ := start_shape (derivedOctets cdi context)
    cases n' with
    | zero =>
      obtain ⟨K1', V1', hK1', hV1', est', hm1', hm2'⟩ := start_shape (derivedOctets cdi' context')
      rw [rfcState, rfcState, est, est'] at e
      obtain ⟨eK, eV⟩ := Prod.mk.inj e
      rcases inj (K1, V1 ++ [0x01] ++ derivedOctets cdi context) (K1', V1' ++ [0x01] ++ derivedOctets cdi' context') (start _ _ _ hm1) (start _ _ _ hm1') hK1 hK1' eK with h | h
      · exact .inl (cut _ _ _ _ _ _ (by omega) (Prod.mk.inj h).2).2
      · exact .inr h
    | succ n' =>
      obtain ⟨K, V, V', hK, hV', e1, e2, e3, m1, m2, m3⟩ := next_shape c (derivedOctets cdi' context') n'
      rw [rfcState, est, e3] at e
      obtain ⟨eK, eV⟩ := Prod.mk.inj e
      rcases inj (K1, V1 ++ [0x01] ++ derivedOctets cdi context) (K, V' ++ [0x00]) (start _ _ _ hm1) (attempt _ _ n' _ (by rw [e1]; exact m2)) hK1 hK eK with h | h
      · exact absurd h (mixed K1 V1 K V' _ _ _ (by omega) rfl rfl)
      · exact .inr h
  | succ n ih =>
    intro n' e
    obtain ⟨K, V, V', hK, hV', e1, e2, e3, m1, m2, m3⟩ := next_shape c (derivedOctets cdi context) n
    cases n' with
    | zero =>
      obtain ⟨K1, V1, hK1, hV1, est, hm1, hm2⟩ := start_shape (derivedOctets cdi' context')
      rw [e3, rfcState, est] at e
      obtain ⟨eK, eV⟩ := Prod.mk.inj e
      rcases inj (K, V' ++ [0x00]) (K1, V1 ++ [0x01] ++ derivedOctets cdi' context') (attempt _ _ n _ (by rw [e1]; exact m2)) (start _ _ _ hm1) hK hK1 eK with h | h
      · exact absurd h.symm (mixed K1 V1 K V' _ _ _ (by omega) rfl rfl)
      · exact .inr h
    | succ n' =>
      obtain ⟨L, W, W', hL, hW', f1, f2, f3, k1, k2, k3⟩ := next_shape c (derivedOctets cdi' context') n'
      rw [e3, f3] at e
      obtain ⟨eK, eV⟩ := Prod.mk.inj e
      rcases inj (K, V' ++ [0x00]) (L, W' ++ [0x00]) (attempt _ _ n _ (by rw [e1]; exact m2)) (attempt _ _ n' _ (by rw [f1]; exact k2)) hK hL eK with h | h
      · obtain ⟨h1, h2⟩ := Prod.mk.inj h
        have h2 := (List.append_inj h2 (by omega)).1
        rw [e2, f2] at h2
        rcases inj (K, V) (L, W) (attempt _ _ n _ (by rw [e1]; exact m1)) (attempt _ _ n' _ (by rw [f1]; exact k1)) hK hL h2 with h | h
        · exact ih n' (by rw [e1, f1, h])
        · exact .inr h
      · exact .inr h

/-- **C68_ec_partial.**  Two EC keys of one type that were derived (in any two histories) from secrets of the same length of up to 128 octets are the same only if they were derived from the
same secret in the same context, or if there is a collision among the messages that were hashed for them.  Missing: as for `C68_partial`, different types and secrets of different lengths.
That EC keys can be derived is shown in Tests/DerivedKey (`test_key`), where the kernel computes one. -/
theorem C68_ec_partial (lib lib' : Lib) (hlib : lib.Standard) (hlib' : lib'.Standard) (cdi cdi' context context' : Bytes) (hlen : cdi.length = cdi'.length) (hmax : cdi.length ≤ 128)
    (type : UInt32) (c : Curve) (h h' : Nat) (w w' : World) (hk : DerivedKey lib cdi context type h w) (hk' : DerivedKey lib' cdi' context' type h' w')
    (d : Nat) (hd : Live w h ⟨type, .inr (.ec c d)⟩) (hd' : Live w' h' ⟨type, .inr (.ec c d)⟩) :
    (cdi = cdi' ∧ context = context') ∨
    ∃ a b, HmacCall c.order cdi context a ∧ HmacCall c.order cdi' context' b ∧ HmacCollision a.1 a.2 b.1 b.2 := by
  have nonce : ∀ (lib : Lib) (cdi context : Bytes) (h : Nat) (w : World), lib.Standard → DerivedKey lib cdi context type h w → Live w h ⟨type, .inr (.ec c d)⟩ →
      ∃ n, d = rfcCandidate .sha512 c.order (derivedOctets cdi context) n := by
    intro lib cdi context h w hlib hk hl
    obtain ⟨_, k, hl', _, hd⟩ := hk.live hlib
    unfold Live at hl hl'
    rw [hl] at hl'
    cases hl'
    rcases hd with ⟨_, hd⟩ | ⟨_, hd⟩ | ⟨c', d', n, hc', hd, hn, _⟩
    · cases hd
    · cases hd
    · cases hd
      exact ⟨n, hn⟩
  obtain ⟨n, e⟩ := nonce lib cdi context h w hlib hk hd
  obtain ⟨n', e'⟩ := nonce lib' cdi' context' h' w' hlib' hk' hd'
  obtain ⟨m, hm1, hm2, hm⟩ := curve_bits c
  unfold rfcCandidate at e e'
  rw [hm] at e e'
  obtain ⟨K, V, V', hK, hV', e1, e2, e3, m1, m2, m3⟩ := next_shape c (derivedOctets cdi context) n
  obtain ⟨L, W, W', hL, hW', f1, f2, f3, k1, k2, k3⟩ := next_shape c (derivedOctets cdi' context') n'
  rw [e1, octets_eq, ← e2, bits2int_take m _ hV' hm2] at e
  rw [f1, octets_eq, ← f2, bits2int_take m _ hW' hm2] at e'
  have ht := fromBE_inj _ _ (by rw [List.length_take, List.length_take, hV', hW']) (e.symm.trans e')
  have ht : V'.take 32 = W'.take 32 := by
    have := congrArg (List.take 32) ht
    rwa [List.take_take, List.take_take, Nat.min_eq_left hm1] at this
  rw [e2, f2] at ht
  rcases hmac_inj (by omega) (by omega) ht with ⟨h1, h2⟩ | hcol
  · rcases state_inj c cdi context cdi' context' n n' (by rw [e1, f1, h1, h2]) with h | h
    · rw [derivedOctets_eq, derivedOctets_eq] at h
      rcases hmac_inj hlen hmax h with ⟨h1, h2⟩ | h
      · exact .inl ⟨h1, List.append_cancel_right h2⟩
      · exact .inr ⟨_, _, .inl rfl, .inl rfl, h⟩
    · exact .inr h
  · exact .inr ⟨(K, V), (L, W), .inr (.inr ⟨n, by rw [e1]; exact m1⟩), .inr (.inr ⟨n', by rw [f1]; exact k1⟩), hcol⟩

/-! ## Examples -/

/-- From every secret, CDIs and Ed25519 keys can be derived. -/
theorem exists_derived (secret : Bytes) (type : UInt32) (ht : type = 3 ∨ type = 4) : ∃ w, DerivedKey calmLib secret [] type 1 w := by
  have hg : GatherList.Valid ⟨0, none⟩ := ⟨fun l hl => by simp at hl, fun s hs => by simp [GatherList.slices] at hs⟩
  have hw : World.Ok ⟨0, [some ⟨4, .inl secret⟩]⟩ := by
    intro p k h
    match p with
    | 0 => simp only [List.getElem?_cons_zero, Option.some.injEq] at h; subst h; rfl
    | p + 1 => simp at h
  rcases C49_kdf calmLib (some ()) (some 0) type (some ⟨0, none⟩) (some none) ⟨0, [some ⟨4, .inl secret⟩]⟩ hw
    (fun p hp => by simp only [Option.some.injEq] at hp; subst hp; exact ⟨_, rfl⟩)
    (fun g hg' => by
      simp only [Option.some.injEq] at hg'
      subst hg'
      exact hg) with ⟨_, _, _, _, _, _, _, c, h, _⟩ | ⟨⟨e, o⟩, w', e1, h⟩
  · rcases ht with rfl | rfl <;> simp [curveOf] at h
  · refine ⟨w', ⟨0, [some ⟨4, .inl secret⟩]⟩, w', 0, ⟨0, none⟩, none, [], hw, rfl, hg, rfl, ?_, .nil _, by simp⟩
    rw [e1]
    rcases h with ⟨h1, h2⟩ | ⟨⟨_, i, _, _, h⟩, _⟩
    · have h1 : e = .ok := by
        rcases ht with rfl | rfl <;> exact h1
      subst h1
      unfold KdfEffects at h2
      rw [if_pos rfl] at h2
      obtain ⟨p, cdi, g, k, _, _, _, _, h3, _⟩ := h2
      have h3 : o = some (some 1) := h3
      rw [h3]
    · simp [calmLib] at h

/-- The CDI and the Ed25519 key of the secret `1, 2, 3`. -/
example : ∃ w w' secret, Live w 1 ⟨4, .inl secret⟩ ∧ Live w' 1 ⟨3, .inr (.ed25519 secret)⟩ := by
  obtain ⟨w, h⟩ := exists_derived [1, 2, 3] 4 (.inr rfl)
  obtain ⟨w', h'⟩ := exists_derived [1, 2, 3] 3 (.inl rfl)
  exact ⟨w, w', C68_ed25519_is_cdi calmLib calmLib calmLib_standard calmLib_standard _ _ _ _ _ _ h h'⟩

/-- The secrets `1, 2, 3` and `1, 2, 3, 0`. -/
example : ∃ w w' k, Live w 1 k ∧ Live w' 1 k := by
  obtain ⟨w, h⟩ := exists_derived [1, 2, 3] 3 (.inl rfl)
  obtain ⟨w', h'⟩ := exists_derived [1, 2, 3, 0] 3 (.inl rfl)
  exact ⟨w, w', C68_zero_padding calmLib calmLib calmLib_standard calmLib_standard [1, 2, 3] [] 1 (by decide) 3 1 1 w w' h h'⟩

/-- A secret of 200 octets and its hash. -/
example : ∃ w w' k, Live w 1 k ∧ Live w' 1 k := by
  obtain ⟨w, h⟩ := exists_derived (List.replicate 200 7) 3 (.inl rfl)
  obtain ⟨w', h'⟩ := exists_derived (sha2 .sha512 (List.replicate 200 7)) 3 (.inl rfl)
  exact ⟨w, w', C68_long_secret calmLib calmLib calmLib_standard calmLib_standard _ [] (by rw [List.length_replicate]; omega) 3 1 1 w w' h h'⟩

/-- The hypotheses of `C68_partial` for the secrets `1, 2, 3` and `1, 2, 4`. -/
example : ∃ w w' s s', DerivedKey calmLib [1, 2, 3] [] 4 1 w ∧ DerivedKey calmLib [1, 2, 4] [] 3 1 w' ∧ HasSecret w 1 s ∧ HasSecret w' 1 s' ∧
    (s = s' → HmacCollision [1, 2, 3] [1] [1, 2, 4] [1]) := by
  obtain ⟨w, h⟩ := exists_derived [1, 2, 3] 4 (.inr rfl)
  obtain ⟨w', h'⟩ := exists_derived [1, 2, 4] 3 (.inl rfl)
  obtain ⟨w1, h1⟩ := exists_derived [1, 2, 3] 3 (.inl rfl)
  obtain ⟨w1', h1'⟩ := exists_derived [1, 2, 4] 4 (.inr rfl)
  obtain ⟨s, hs, _⟩ := C68_ed25519_is_cdi calmLib calmLib calmLib_standard calmLib_standard _ _ _ _ _ _ h h1
  obtain ⟨s', _, hs'⟩ := C68_ed25519_is_cdi calmLib calmLib calmLib_standard calmLib_standard _ _ _ _ _ _ h1' h'
  refine ⟨w, w', s, s', h, h', .inl hs, .inr hs', fun e => ?_⟩
  subst e
  rcases C68_partial calmLib calmLib calmLib_standard calmLib_standard [1, 2, 3] [1, 2, 4] [] [] rfl (by decide) 4 3 1 1 w w' h h' s (.inl hs) (.inr hs') with ⟨h, _⟩ | h
  · simp at h
  · exact h

end Nat20

import Verif.Lemmas.SizedDigest
import Verif.Props.Digest
/-!
# C84: digests, HMAC and HKDF do not depend on the width of `size_t`
-/

namespace Nat20.Sized

open Fips

variable {w : Nat} (hw : w ≤ 64) (hw' : 16 ≤ w)

include hw hw'

/-- **C84.** The functions for hash states: from any state (also at NULL) the same state, the same digest. -/
theorem C84_states :
    (∀ s (data : Slice w), sha256Update w s data = Nat20.sha256Update s data.wide) ∧
    (∀ s (data : Slice w), sha512Update w s data = Nat20.sha512Update s data.wide) ∧
    (∀ s d, sha224Finalize w s d = Nat20.sha224Finalize s d) ∧
    (∀ s d, sha256Finalize w s d = Nat20.sha256Finalize s d) ∧
    (∀ s d, sha384Finalize w s d = Nat20.sha384Finalize s d) ∧
    ∀ s d, sha512Finalize w s d = Nat20.sha512Finalize s d :=
  ⟨fun _ _ => shaUpdate_eq hw hw' _ _ _, fun _ _ => shaUpdate_eq hw hw' _ _ _, fun _ _ => shaFinalize_eq hw' _ _ _ _, fun _ _ => shaFinalize_eq hw' _ _ _ _,
    fun _ _ => shaFinalize_eq hw' _ _ _ _, fun _ _ => shaFinalize_eq hw' _ _ _ _⟩

/-- **C84.** All five functions of the native digest context, for all arguments. -/
theorem C84_context :
    SameDigest (nat20Ctx (w := w)).digest Nat20.nat20Ctx.digest ∧
    SameHmac (nat20Ctx (w := w)).hmac Nat20.nat20Ctx.hmac ∧
    SameExtract (nat20Ctx (w := w)).hkdfExtract Nat20.nat20Ctx.hkdfExtract ∧
    SameExpand (nat20Ctx (w := w)).hkdfExpand Nat20.nat20Ctx.hkdfExpand ∧
    SameHkdf (nat20Ctx (w := w)).hkdf Nat20.nat20Ctx.hkdf :=
  have hd := digest_same hw hw'
  have hh := hmac_same hw hw' hd
  have he := extract_same hw hw' hh
  have hx := expand_same hw hw' hh hmac_keeps
  ⟨hd, hh, he, hx, hkdf_same hw hw' he hx⟩

/-- **C84.** The functions for HMAC and HKDF with the functions of another context that do the same on both platforms.  The loop of HKDF expand relies on it that
`hmac` leaves the size at the size of the digest, on both platforms. -/
theorem C84_members :
    (∀ (f : DigestFn w) f', SameDigest f f' → SameHmac (n20Hmac (some f)) (Nat20.n20Hmac (some f'))) ∧
    (∀ (f : HmacFn w) f', SameHmac f f' → SameExtract (n20HkdfExtract (some f)) (Nat20.n20HkdfExtract (some f'))) ∧
    (∀ (f : HmacFn w) f', SameHmac f f' → KeepsSize f → SameExpand (n20HkdfExpand (some f)) (Nat20.n20HkdfExpand (some f'))) ∧
    ∀ (f : ExtractFn w) f' (g : ExpandFn w) g', SameExtract f f' → SameExpand g g' → SameHkdf (n20Hkdf (some (f, g))) (Nat20.n20Hkdf (some (f', g'))) :=
  ⟨fun _ _ h => hmac_same hw hw' h, fun _ _ h => extract_same hw hw' h, fun _ _ h hk => expand_same hw hw' h hk, fun _ _ _ _ h h' => hkdf_same hw hw' h h'⟩

omit hw hw' in
/-- **C84.** A call without a context. -/
theorem C84_no_context :
    SameDigest (n20Digest none : DigestFn w) (Nat20.n20Digest none) ∧ SameHmac (n20Hmac none : HmacFn w) (Nat20.n20Hmac none) ∧
    SameExtract (n20HkdfExtract none : ExtractFn w) (Nat20.n20HkdfExtract none) ∧ SameExpand (n20HkdfExpand none : ExpandFn w) (Nat20.n20HkdfExpand none) ∧
    SameHkdf (n20Hkdf none : HkdfFn w) (Nat20.n20Hkdf none) :=
  ⟨fun _ _ _ _ _ => rfl, fun _ _ _ _ _ => rfl, fun _ _ _ _ _ => rfl, fun _ _ _ _ _ => rfl, fun _ _ _ _ _ _ => rfl⟩

/-- **C84.** In particular (with C40) the digest is SHA-2 of the message, also if the message is longer than a `size_t` can tell. -/
theorem C84_sha2 (a : Alg) (msg : List (GatherList w)) (count : BitVec w) (hv : MessageValid (msg.map GatherList.wide) (toUInt64 count))
    (hn : MessageNoNull (msg.map GatherList.wide) (toUInt64 count)) (hm : (messageOf (msg.map GatherList.wide) (toUInt64 count)).length < 2 ^ 61)
    (d : Bytes) (sz : BitVec w) (hsz : a.size ≤ sz.toNat) (hd : sz.toNat ≤ d.length) :
    nat20Ctx.digest (algId a) (some msg) count (some d) (some sz) =
      .ok ⟨.ok, some (sha2 a (messageOf (msg.map GatherList.wide) (toUInt64 count)) ++ d.drop a.size), some (BitVec.ofNat w a.size)⟩ := by
  have h := (C84_context hw hw').1 (algId a) (some msg) count (some d) (some sz)
  have hc := C40_digest a (msg.map GatherList.wide) (toUInt64 count) hv hn hm d (toUInt64 sz) (by rw [toUInt64_toNat hw]; exact hsz) (by rw [toUInt64_toNat hw]; exact hd)
  rw [Option.map_some, Option.map_some, hc] at h
  generalize nat20Ctx.digest (algId a) (some msg) count (some d) (some sz) = r at h ⊢
  cases r with
  | error e => cases h
  | ok r =>
    obtain ⟨err, out, size⟩ := r
    have h' := Except.ok.inj h
    unfold Reply.wide at h'
    simp only [Nat20.Reply.mk.injEq] at h'
    obtain ⟨rfl, rfl, h3⟩ := h'
    cases size with
    | none => cases h3
    | some n =>
      have h3 := congrArg UInt64.toNat (Option.some.inj h3)
      have ha : a.size < 65536 := by cases a <;> decide
      rw [toUInt64_toNat hw, UInt64.toNat_ofNat', Nat.mod_eq_of_lt (size_lt a)] at h3
      rw [show n = BitVec.ofNat w a.size from BitVec.eq_of_toNat_eq (by rw [h3, ofNat_toNat hw' ha])]

/-! ## Non-vacuity -/

omit hw hw'

/-- With 16 bits: SHA-256 of "abc". -/
example : nat20Ctx.digest (w := 16) 1 (some [⟨2, some [⟨1, some ⟨[], [0x61]⟩⟩, ⟨0, none⟩]⟩, ⟨0, none⟩, ⟨1, some [⟨2, some ⟨[], [0x62, 0x63]⟩⟩]⟩]) 3
    (some (List.replicate 33 0)) (some 33) = .ok ⟨.ok, some [
      0xba, 0x78, 0x16, 0xbf, 0x8f, 0x01, 0xcf, 0xea, 0x41, 0x41, 0x40, 0xde, 0x5d, 0xae, 0x22, 0x23,
      0xb0, 0x03, 0x61, 0xa3, 0x96, 0x17, 0x7a, 0x9c, 0xb4, 0x10, 0xff, 0x61, 0xf2, 0x00, 0x15, 0xad, 0], some 32⟩ := by decide +kernel

/-- With 32 bits: the context answers wrong arguments, and HKDF expand returns part of a block. -/
example :
    nat20Ctx.hmac (w := 32) 1 ⟨1, none⟩ none none (some 3) = .ok ⟨.nullSliceKey, none, some 3⟩ ∧
    nat20Ctx.hmac (w := 32) 1 ⟨0, none⟩ none none (some 3) = .ok ⟨.insufficientBufferSize, none, some 32⟩ ∧
    ((nat20Ctx.hkdfExpand (w := 32) 1 ⟨1, some ⟨[], [7]⟩⟩ ⟨0, none⟩ 5 (some [0, 0, 0, 0, 0, 0])).toOption.map fun r => (r.1, r.2.map (·.length))) = some (.ok, some 6) := by
  decide +kernel

/-- A message of 131073 octets with a `size_t` of 16 bits, which meets the hypotheses: three slices of 43691 octets. -/
example :
    let s : Slice 16 := ⟨43691, some ⟨[], List.replicate 43691 1⟩⟩
    let msg : List (GatherList 16) := [⟨3, some [s, s, s]⟩]
    MessageValid (msg.map GatherList.wide) 1 ∧ MessageNoNull (msg.map GatherList.wide) 1 ∧ (messageOf (msg.map GatherList.wide) 1).length = 131073 := by
  have hg : ∀ b : Bytes, b.length = 43691 →
      let s : Slice 16 := ⟨43691, some ⟨[], b⟩⟩
      let msg : List (GatherList 16) := [⟨3, some [s, s, s]⟩]
      MessageValid (msg.map GatherList.wide) 1 ∧ MessageNoNull (msg.map GatherList.wide) 1 ∧ (messageOf (msg.map GatherList.wide) 1).length = 131073 := by
    intro b hb s msg
    have he : msg.map GatherList.wide = [⟨3, some [⟨43691, some ⟨[], b⟩⟩, ⟨43691, some ⟨[], b⟩⟩, ⟨43691, some ⟨[], b⟩⟩]⟩] := rfl
    have hv : (⟨43691, some ⟨[], b⟩⟩ : Nat20.Slice).Valid := by
      intro p hp
      cases hp
      exact Nat.le_of_eq hb.symm
    have hl : ∀ x ∈ ([⟨43691, some ⟨[], b⟩⟩, ⟨43691, some ⟨[], b⟩⟩, ⟨43691, some ⟨[], b⟩⟩] : List Nat20.Slice), x = ⟨43691, some ⟨[], b⟩⟩ := by
      intro x hx
      simpa using hx
    have hb' : (⟨43691, some ⟨[], b⟩⟩ : Nat20.Slice).bytes.length = 43691 := by
      show (b.take 43691).length = 43691
      rw [List.length_take, hb]
      rfl
    rw [he]
    refine ⟨⟨by simp, Nat.le_refl 1, ?_⟩, ⟨?_, ?_⟩, ?_⟩
    · intro g hg
      cases List.mem_singleton.1 hg
      exact ⟨fun l hl => by cases hl; exact Nat.le_refl 3, fun x hx => hl x hx ▸ hv⟩
    · intro g hg
      cases hg
      exact nofun
    · intro g hg
      cases List.mem_singleton.1 hg
      exact ⟨nofun, fun x hx => hl x hx ▸ nofun⟩
    · show (List.flatten [GatherList.bytes _]).length = _
      show (List.flatten [List.flatten [Slice.bytes _, Slice.bytes _, Slice.bytes _]]).length = _
      simp only [List.length_flatten, List.map_cons, List.map_nil, List.sum_cons, List.sum_nil, hb', Nat.reduceAdd]
  exact hg _ List.length_replicate

end Nat20.Sized

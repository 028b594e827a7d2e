import Verif.Props.Issue
/-!
# C67: keys and certificates across restarts

A device derives its keys anew after each start.  The certificates issued before remain valid for the keys derived afterwards.
-/

namespace Nat20

open Fips Pki

/-- A key that was derived in some history and still exists: `kdf` succeeded with a CDI of these octets and a context of these octets, and anything legal was done since, except
for destroying the key. -/
def DerivedKey (lib : Lib) (cdi context : Bytes) (type : UInt32) (handle : Nat) (w : World) : Prop :=
  ∃ w0 w1 p g old ops, w0.Ok ∧ Live w0 p ⟨4, .inl cdi⟩ ∧ g.Valid ∧ g.bytes = context ∧
    bsslKdf lib (some ()) (some p) type (some g) (some old) w0 = .ok ((.ok, some (some handle)), w1) ∧ History lib w1 ops w ∧ ∀ x ∈ ops, ¬ x.1.Destroys handle

theorem DerivedKey.live {lib : Lib} (hlib : lib.Standard) {cdi context : Bytes} {type : UInt32} {handle : Nat} {w : World} (h : DerivedKey lib cdi context type handle w) :
    w.Ok ∧ ∃ k, Live w handle k ∧ IsDerived cdi context type k := by
  obtain ⟨w0, w1, p, g, old, ops, hw0, hp, hg, rfl, e, hist, hd⟩ := h
  obtain ⟨k, hk, _, hder⟩ := C58_kdf_deterministic lib lib p p type g g old old w0 w0 hw0 hw0 cdi hp hp hg hg rfl w1 w1 handle handle e e
  have hw1 : w1.Ok := by
    rcases C57_step lib hlib (.kdf (some ()) (some p) type (some g) (some old)) w0 hw0
      ⟨fun q hq => by simp only [Option.some.injEq] at hq; subst hq; exact ⟨_, hp⟩, fun x hx => by simp only [Option.some.injEq] at hx; subst hx; exact hg⟩ with ⟨h, _⟩ | ⟨e', w', h, hok, _⟩
    · simp only [KeyOp.run] at h
      rw [bindB e] at h
      cases h
    · simp only [KeyOp.run] at h
      rw [bindB e] at h
      cases h
      exact hok
  obtain ⟨h1, h2, _⟩ := C57_histories lib hlib w1 hw1 ops w hist
  exact ⟨h1, k, h2 handle k hk hd, hder⟩

/-- The public key as it is in certificates, from what `key_get_public_key` returned. -/
def pointFormat (type : UInt32) (key : Bytes) : Bytes := if type = 3 then key else 0x04 :: key

theorem certifiedKey_format (lib : Lib) (k : BsslKey) (sk : PKey) (hk : KeyOk k) (hb : k.body = .inr sk) : certifiedKey lib sk = pointFormat k.type (publicKeyOf lib sk) := by
  rcases key_cases hk hb with ⟨seed, rfl, _, ht⟩ | ⟨c, d, rfl, _, _, _, ht⟩
  · unfold pointFormat
    rw [if_pos ht]
    rfl
  · unfold pointFormat
    rw [if_neg (by rcases ht with ⟨h, _⟩ | ⟨h, _⟩ <;> rw [h] <;> decide)]
    rfl

/-- **C67.** A key is derived before and after a restart (any two histories, any library failures in them), from a CDI of the same octets in a context of the same octets.
After the restart its public key is read.  Every certificate issued with the key before verifies with this public key, and every certificate issued for the key before is one
for this public key. -/
theorem C67_restart (lib lib' : Lib) (hlib : lib.Standard) (hlib' : lib'.Standard) (hsame : lib'.ecPublic = lib.ecPublic ∧ lib'.edPublic = lib.edPublic)
    (v : Verifier) (hv : v.Accepts lib) (cdi context : Bytes) (type : UInt32) (ht : type = 1 ∨ type = 2 ∨ type = 3)
    (key : Nat) (w : World) (hkey : DerivedKey lib cdi context type key w)
    (key' : Nat) (w' : World) (hkey' : DerivedKey lib' cdi context type key' w')
    -- the public key after the restart
    (out out' : Bytes) (size n : UInt64) (w1' : World) (hout : size.toNat ≤ out.length)
    (hpub : bsslPublicKey lib' (some ()) (some key') (some out) (some size) w' = .ok (⟨.ok, some out', some n⟩, w1'))
    -- the certificate from before the restart, for or by some other key
    (other : Nat) (ko : BsslKey) (hother : Live w other ko) (hto : ko.type = 1 ∨ ko.type = 2 ∨ ko.type = 3)
    (fr : Frame) (content : Extension → Bytes) (t : Tbs) (h : TbsArg fr content t) (first : UInt8) (keyBuffer signature buffer : Bytes)
    (hkb : 96 ≤ keyBuffer.length ∧ keyBuffer.length < 2 ^ 64) (hsb : 104 ≤ signature.length ∧ signature.length < 2 ^ 64) (hbuf : buffer.length < 2 ^ 64) (c : Bytes) (w1 : World) :
    (issue lib fr t other ko.type key type first keyBuffer signature buffer w = .ok (.certificate c, w1) → Verifies v type (pointFormat type (out'.take n.toNat)) c) ∧
    (issue lib fr t key type other ko.type first keyBuffer signature buffer w = .ok (.certificate c, w1) → Certifies type (pointFormat type (out'.take n.toNat)) c) := by
  obtain ⟨hw, k, hl, hd⟩ := hkey.live hlib
  obtain ⟨hw', k', hl', hd'⟩ := hkey'.live hlib'
  have hkk := derived_unique hd hd'
  subst hkk
  have htype : k.type = type := hd.1
  subst htype
  obtain ⟨sk, hb⟩ := evp_body (hw _ _ hl) ht
  -- the public key
  have hpk : out'.take n.toNat = publicKeyOf lib sk := by
    obtain ⟨r, w2, e, _, _, hr⟩ := C49_public_key lib' hlib' (some ()) (some key') (some out) (some size) w' hw' (live_handle hl')
      (fun d sz h1 h2 => by simp only [Option.some.injEq] at h1 h2; subst h1 h2; exact hout)
    rw [hpub] at e
    simp only [Except.ok.injEq, Prod.mk.injEq] at e
    obtain ⟨rfl, rfl⟩ := e
    rcases hr with ⟨_, hr⟩ | ⟨_, hr, _⟩
    · obtain ⟨m, d, val, _, _, hlen, ⟨k2, sk2, ho, hb2, hval⟩, hr1, hr2⟩ := hr
      rw [live_object hl'] at ho
      cases ho
      rw [hb] at hb2
      cases hb2
      simp only [Option.some.injEq] at hr1 hr2
      subst hr1 hr2
      rw [List.take_append_of_le_length (by omega), List.take_of_length_le (by omega), hval]
      cases sk with
      | ed25519 seed => exact congrFun hsame.2 seed
      | ec c d => simp only [publicKeyOf, hsame.1]
    · rcases hr with hr | hr <;> cases hr
  rw [hpk, ← certifiedKey_format lib k sk (hw _ _ hl) hb]
  constructor
  · intro hi
    obtain ⟨_, ski, res, w2, _, hbi, e, _, _, hres⟩ := C60_issue lib hlib v hv w hw other key ko k hother hl hto ht fr content t h first keyBuffer signature buffer hkb hsb hbuf
    rw [hi] at e
    cases e
    rw [hb] at hbi
    cases hbi
    exact hres.1
  · intro hi
    obtain ⟨sks, _, res, w2, hbs, _, e, _, _, hres⟩ := C60_issue lib hlib v hv w hw key other k ko hl hother ht hto fr content t h first keyBuffer signature buffer hkb hsb hbuf
    rw [hi] at e
    cases e
    rw [hb] at hbs
    cases hbs
    exact hres.2.1

/-- Non-vacuity: the key of the CDI `1, 2, 3` without a context exists after a derivation. -/
theorem exampleDerived : ∃ w, DerivedKey calmLib [1, 2, 3] [] 3 4 w := by
  have hg : GatherList.Valid ⟨0, none⟩ := ⟨fun l hl => by simp at hl, fun s hs => by simp [GatherList.slices] at hs⟩
  rcases C49_kdf calmLib (some ()) (some 0) 3 (some ⟨0, none⟩) (some none) someKeys someKeys_ok
    (fun p hp => by simp only [Option.some.injEq] at hp; subst hp; exact ⟨_, rfl⟩)
    (fun g hg' => by
      simp only [Option.some.injEq] at hg'
      subst hg'
      exact hg) with ⟨_, _, _, _, _, _, _, c, h, _⟩ | ⟨⟨e, o⟩, w', e1, h⟩
  · simp [curveOf] at h
  · refine ⟨w', someKeys, w', 0, ⟨0, none⟩, none, [], someKeys_ok, rfl, hg, rfl, ?_, .nil _, by simp⟩
    rw [e1]
    rcases h with ⟨h1, h2⟩ | ⟨⟨_, i, _, _, h⟩, _⟩
    · have h1 : e = .ok := h1
      subst h1
      unfold KdfEffects at h2
      rw [if_pos rfl] at h2
      obtain ⟨p, cdi, g, k, _, _, _, _, h3, _⟩ := h2
      have h3 : o = some (some 4) := h3
      rw [h3]
    · simp [calmLib] at h

/-- A key like this one can issue certificates. -/
example : certificateLength (issue calmLib ⟨[], [], false⟩ exampleTbs 1 1 4 3 0 (List.replicate 127 0) (List.replicate 128 0) (List.replicate 304 0)
    ⟨17, someKeys.heap ++ [some ⟨3, .inr (.ed25519 (List.replicate 32 5))⟩]⟩) = some 304 := by
  decide +kernel

end Nat20

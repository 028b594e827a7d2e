import Verif.Spec.Chain
import Verif.Props.Reboot
import Verif.Lemmas.Size
/-!
# C79: chains of certificates over any number of layers
-/

namespace Nat20

open Fips Pki Der

/-- A layer of the boot process: the CDI that it gets, the context in which it derives its key from it, the type of the key, its name in certificates. -/
structure Layer where
  cdi : Bytes
  context : Bytes
  type : UInt32
  name : Name

/-- Layers with a key that can sign. -/
def Layer.Signing (l : Layer) : Prop := SigningType l.type

/-- Two runs of the library that compute the same public keys; what fails, and the nonces of signatures, may differ. -/
def SameKeys (lib lib' : Lib) : Prop := lib'.ecPublic = lib.ecPublic ∧ lib'.edPublic = lib.edPublic

/-- The key of layer `l` was used to issue a certificate for the key of layer `l'`: in some run, in some state in which both were derived before, with any fields other than the
names, any extensions, any buffers. -/
def IssuedBy (lib : Lib) (v : Verifier) (l l' : Layer) (cert : Bytes) : Prop :=
  ∃ lib' w key key' fr content t first keyBuffer signature buffer w', lib'.Standard ∧ v.Accepts lib' ∧ SameKeys lib lib' ∧
    DerivedKey lib' l.cdi l.context l.type key w ∧ DerivedKey lib' l'.cdi l'.context l'.type key' w ∧
    TbsArg fr content t ∧ t.issuerName = l.name ∧ t.subjectName = l'.name ∧
    96 ≤ keyBuffer.length ∧ keyBuffer.length < 2 ^ 64 ∧ 104 ≤ signature.length ∧ signature.length < 2 ^ 64 ∧ buffer.length < 2 ^ 64 ∧
    issue lib' fr t key' l'.type key l.type first keyBuffer signature buffer w = .ok (.certificate cert, w')

/-- Each layer issued a certificate for the next one. -/
inductive IssuedChain (lib : Lib) (v : Verifier) : Layer → List Bytes → Layer → Prop where
  | nil (l : Layer) : IssuedChain lib v l [] l
  | cons {l l' l'' : Layer} {cert : Bytes} {certs : List Bytes} : l'.Signing → IssuedBy lib v l l' cert → IssuedChain lib v l' certs l'' → IssuedChain lib v l (cert :: certs) l''

/-- The public key of a layer as `key_get_public_key` returned it in some run. -/
def PublicKeyRead (lib : Lib) (l : Layer) (key : Bytes) : Prop :=
  ∃ lib' w handle out out' size n w', lib'.Standard ∧ SameKeys lib lib' ∧ DerivedKey lib' l.cdi l.context l.type handle w ∧ size.toNat ≤ out.length ∧
    bsslPublicKey lib' (some ()) (some handle) (some out) (some size) w = .ok (⟨.ok, some out', some n⟩, w') ∧ key = pointFormat l.type (out'.take n.toNat)

/-- The name of a layer in DER. -/
def Layer.nameDer (l : Layer) : Der := Pki.nameDer (nameValue (some l.name))

theorem certifiedKey_same {lib lib' : Lib} (h : SameKeys lib lib') (sk : PKey) : certifiedKey lib' sk = certifiedKey lib sk := by
  cases sk with
  | ed25519 seed => exact congrFun h.2 seed
  | ec c d => simp only [certifiedKey, publicKeyOf, h.1]

/-- The key that a layer has in all runs. -/
def KeyOf (l : Layer) (k : BsslKey) : Prop := IsDerived l.cdi l.context l.type k

theorem read_key {lib : Lib} {l : Layer} (hs : l.Signing) {key : Bytes} (h : PublicKeyRead lib l key) :
    ∃ k sk, KeyOf l k ∧ KeyOk k ∧ k.body = .inr sk ∧ key = certifiedKey lib sk := by
  obtain ⟨lib', w, handle, out, out', size, n, w', hlib', hsame, hkey, hout, hpub, rfl⟩ := h
  obtain ⟨hw, k, hl, hd⟩ := hkey.live hlib'
  have htype : k.type = l.type := hd.1
  have hs' : k.type = 1 ∨ k.type = 2 ∨ k.type = 3 := by rw [htype]; exact hs
  obtain ⟨sk, hb⟩ := evp_body (hw _ _ hl) hs'
  refine ⟨k, sk, hd, hw _ _ hl, hb, ?_⟩
  rw [← certifiedKey_same hsame, certifiedKey_format lib' k sk (hw _ _ hl) hb, htype]
  congr 1
  obtain ⟨r, w2, e, _, _, hr⟩ := C49_public_key lib' hlib' (some ()) (some handle) (some out) (some size) w hw (live_handle hl)
    (fun d sz h1 h2 => by simp only [Option.some.injEq] at h1 h2; subst h1 h2; exact hout)
  rw [hpub] at e
  simp only [Except.ok.injEq, Prod.mk.injEq] at e
  obtain ⟨rfl, rfl⟩ := e
  rcases hr with ⟨_, hr⟩ | ⟨_, hr, _⟩
  · obtain ⟨m, d, val, _, _, hlen, ⟨k2, sk2, ho, hb2, hval⟩, hr1, hr2⟩ := hr
    rw [live_object hl] at ho
    cases ho
    rw [hb] at hb2
    cases hb2
    simp only [Option.some.injEq] at hr1 hr2
    subst hr1 hr2
    rw [List.take_append_of_le_length (by omega), List.take_of_length_le (by omega), hval]
  · rcases hr with hr | hr <;> cases hr

theorem issued_link {lib : Lib} {v : Verifier} {l l' : Layer} {cert : Bytes} (hs : l.Signing) (hs' : l'.Signing) (h : IssuedBy lib v l l' cert) :
    ∃ k k' sk sk', KeyOf l k ∧ KeyOf l' k' ∧ KeyOk k' ∧ k.body = .inr sk ∧ k'.body = .inr sk' ∧ Verifies v l.type (certifiedKey lib sk) cert ∧
      HasNames cert l.nameDer l'.nameDer ∧ Certifies l'.type (certifiedKey lib sk') cert := by
  obtain ⟨lib', w, key, key', fr, content, t, first, keyBuffer, signature, buffer, w', hlib, hv, hsame, hk, hk', ht, hi, hsub, b1, b2, b3, b4, b5, e⟩ := h
  obtain ⟨hw, k, hl, hd⟩ := hk.live hlib
  obtain ⟨-, k', hl', hd'⟩ := hk'.live hlib
  have htype : k.type = l.type := hd.1
  have htype' : k'.type = l'.type := hd'.1
  obtain ⟨sks, ski, res, w2, hbs, hbi, e', _, _, hres⟩ := C60_issue lib' hlib v hv w hw key' key k' k hl' hl (by rw [htype']; exact hs') (by rw [htype]; exact hs)
    fr content t ht first keyBuffer signature buffer ⟨b1, b2⟩ ⟨b3, b4⟩ b5
  rw [htype, htype'] at e'
  rw [e] at e'
  cases e'
  obtain ⟨h1, h2, s, h3⟩ := hres
  rw [htype, htype'] at h3
  rw [htype, certifiedKey_same hsame] at h1
  rw [htype', certifiedKey_same hsame] at h2
  refine ⟨k, k', ski, sks, hd, hd', hw _ _ hl', hbi, hbs, h1, ?_, h2⟩
  unfold issuedDer at h3
  rw [hi, hsub] at h3
  exact ⟨_, _, _, _, _, _, h3⟩

/-- **C79.** Any number of layers, each of which derived its key from its CDI in some run and issued, in some run, a certificate for the key of the next layer in its own name:
the certificates form a valid path from the public key and the name of the first layer to the public key and the name of the last one, as the layers read them in any run. -/
theorem C79_chain (lib : Lib) (v : Verifier) (first last : Layer) (certs : List Bytes) (hs : first.Signing) (h : IssuedChain lib v first certs last) (root leaf : Bytes)
    (hroot : PublicKeyRead lib first root) (hleaf : PublicKeyRead lib last leaf) :
    PathValid v first.type root first.nameDer certs last.type leaf last.nameDer := by
  obtain ⟨kl, skl, hkl, -, hbl, rfl⟩ : ∃ k sk, KeyOf last k ∧ KeyOk k ∧ k.body = .inr sk ∧ leaf = certifiedKey lib sk := by
    refine read_key ?_ hleaf
    clear hroot hleaf
    induction h with
    | nil l => exact hs
    | cons h1 _ _ ih => exact ih h1
  obtain ⟨k0, sk0, hk0, -, hb0, rfl⟩ := read_key hs hroot
  clear hroot hleaf
  induction h generalizing k0 sk0 with
  | nil l =>
    have := derived_unique hk0 hkl
    subst this
    rw [hb0] at hbl
    cases hbl
    exact .nil _ _ _
  | cons h1 h2 h3 ih =>
    obtain ⟨k, k', sk, sk', a1, a2, _, a3, a4, a5, a6, a7⟩ := issued_link hs h1 h2
    have := derived_unique hk0 a1
    subst this
    rw [hb0] at a3
    cases a3
    exact .cons a5 a6 h1 a7 (ih h1 hkl k' sk' a2 a4)

theorem certifies_type {type type' : UInt32} {key key' cert : Bytes} (ht : SigningType type) (ht' : SigningType type') (h : Certifies type key cert) (h' : Certifies type' key' cert) :
    type = type' := by
  obtain ⟨tbs, a, s, h1, x1, x2, x3, x4, x5, x6, h2⟩ := h
  obtain ⟨tbs', a', s', h1', y1, y2, y3, y4, y5, y6, h2'⟩ := h'
  obtain ⟨e1, e2, e3⟩ := hasParts_unique h1 h1'
  subst e1 e2 e3
  rw [h2] at h2'
  simp only [Option.some.injEq, Der.cons.injEq, List.cons.injEq, Der.prim.injEq, true_and, and_true] at h2'
  have e := congrArg Der.encode h2'.2.2.2.2.2.1.1
  rcases ht with rfl | rfl | rfl <;> rcases ht' with rfl | rfl | rfl <;> first | rfl | exact absurd e (by decide +kernel)

/-- **C79** (what a verifier learns).  A path leads to one key and one name only: somebody who starts with the key and the name of the first layer and checks the certificates
ends with the public key and the name of the last layer and nothing else. -/
theorem C79_leaf (v : Verifier) {certs : List Bytes} {type t1 t2 : UInt32} {key k1 k2 : Bytes} {name n1 n2 : Der} (h1 : PathValid v type key name certs t1 k1 n1)
    (h2 : PathValid v type key name certs t2 k2 n2) : t1 = t2 ∧ k1 = k2 ∧ n1 = n2 := by
  induction certs generalizing type key name with
  | nil =>
    cases h1
    cases h2
    exact ⟨rfl, rfl, rfl⟩
  | cons cert certs ih =>
    cases h1 with
    | cons a1 a2 at' a3 a4 =>
      cases h2 with
      | cons b1 b2 bt b3 b4 =>
        have e := certifies_unique a3 b3
        subst e
        have e := certifies_type at' bt a3 b3
        subst e
        obtain ⟨x1, x2, x3, x4, x5, x6, hx⟩ := a2
        obtain ⟨y1, y2, y3, y4, y5, y6, hy⟩ := b2
        rw [hx] at hy
        simp only [Option.some.injEq, Der.cons.injEq, List.cons.injEq, true_and] at hy
        have e : _ = _ := hy.1.2.2.2.2.1
        rw [e] at a4
        exact ih a4 b4

/-! ## Examples -/

theorem element_le {n : Nat} (m : Nat) (h : n ≤ m) (hm : m < 2 ^ 32) : Size.element n ≤ m + 6 := by
  have h1 := (Size.bitLength_le_iff n 32).mpr (by omega)
  unfold Size.element Size.lengthField
  split <;> omega

/-- A derivation of an Ed25519 key from the CDI `1, 2, 3`. -/
theorem calm_derive (w : World) (hw : w.Ok) (hp : Live w 0 ⟨4, .inl [1, 2, 3]⟩) (g : GatherList) (hg : g.Valid) (hge : gatherError (some g) = .ok) :
    ∃ w1, bsslKdf calmLib (some ()) (some 0) 3 (some g) (some none) w = .ok ((.ok, some (some w.heap.length)), w1) ∧ w1.Ok ∧ ∃ k, w1.heap = w.heap ++ [some k] := by
  have hk : HandleOk w (some 0) := fun p hp' => by simp only [Option.some.injEq] at hp'; subst hp'; exact ⟨_, hp⟩
  have hg' : ∀ x, some g = some x → x.Valid := fun x hx => by simp only [Option.some.injEq] at hx; subst hx; exact hg
  rcases C49_kdf calmLib (some ()) (some 0) 3 (some g) (some none) w hw hk hg' with ⟨_, _, _, _, _, _, _, c, h, _⟩ | ⟨⟨e, o⟩, w', e1, h⟩
  · simp [curveOf] at h
  · rcases h with ⟨h1, h2⟩ | ⟨⟨_, i, _, _, h⟩, _⟩
    · have h1 : e = .ok := by
        refine h1.trans ?_
        unfold documentedKdfError
        rw [live_object hp, hge]
        rfl
      subst h1
      unfold KdfEffects at h2
      rw [if_pos rfl] at h2
      obtain ⟨p, cdi, g, k, _, _, _, _, h3, h4⟩ := h2
      have h3 : o = some (some w.heap.length) := h3
      subst h3
      refine ⟨w', e1, ?_, k, h4⟩
      rcases C57_step calmLib calmLib_standard (.kdf (some ()) (some 0) 3 (some _) (some none)) w hw ⟨hk, hg'⟩ with ⟨h, _⟩ | ⟨e', w2, h, hok, _⟩
      · simp only [KeyOp.run] at h
        rw [bindB e1] at h
        cases h
      · simp only [KeyOp.run] at h
        rw [bindB e1] at h
        cases h
        exact hok
    · simp [calmLib] at h

/-- A context of one slice. -/
def oneSlice (c : Bytes) : GatherList := ⟨1, some [⟨UInt64.ofNat c.length, some ⟨[], c⟩⟩]⟩

theorem oneSlice_valid (c : Bytes) (h : c.length < 2 ^ 64) : (oneSlice c).Valid ∧ (oneSlice c).bytes = c ∧ gatherError (some (oneSlice c)) = .ok := by
  have hn : (UInt64.ofNat c.length).toNat = c.length := by rw [UInt64.toNat_ofNat']; exact Nat.mod_eq_of_lt h
  refine ⟨⟨fun l hl => ?_, fun s hs => ?_⟩, ?_, rfl⟩
  · cases hl
    exact Nat.le_refl 1
  · have hs : s ∈ [(⟨UInt64.ofNat c.length, some ⟨[], c⟩⟩ : Slice)] := hs
    simp only [List.mem_singleton] at hs
    subst hs
    exact slice_valid_of_le _ _ _ (by rw [hn]; exact Nat.le_refl _)
  · show (List.map Slice.bytes [(⟨UInt64.ofNat c.length, some ⟨[], c⟩⟩ : Slice)]).flatten = c
    simp [Slice.bytes, hn]

/-- Layers with Ed25519 keys from the CDI `1, 2, 3`. -/
def exampleLayer (x : Bytes × Name) : Layer := ⟨[1, 2, 3], x.1, 3, x.2⟩

/-- What makes a layer of the example: a context and a name that can be passed. -/
def LayerArg (x : Bytes × Name) : Prop := x.1.length < 2 ^ 64 ∧ NameArg x.2 ∧ (nameDer (nameValue (some x.2))).encode.length ≤ 1000

theorem calm_keys (x y : Bytes × Name) (hx : LayerArg x) (hy : LayerArg y) :
    ∃ w, DerivedKey calmLib [1, 2, 3] x.1 3 4 w ∧ DerivedKey calmLib [1, 2, 3] y.1 3 5 w := by
  obtain ⟨gx, ex, nx⟩ := oneSlice_valid x.1 hx.1
  obtain ⟨gy, ey, ny⟩ := oneSlice_valid y.1 hy.1
  obtain ⟨w1, e1, ok1, k1, h1⟩ := calm_derive someKeys someKeys_ok rfl (oneSlice x.1) gx nx
  have hp : Live w1 0 ⟨4, .inl [1, 2, 3]⟩ := by unfold Live; rw [h1]; rfl
  obtain ⟨w2, e2, ok2, k2, h2⟩ := calm_derive w1 ok1 hp (oneSlice y.1) gy ny
  have hl : w1.heap.length = 5 := by rw [h1]; rfl
  rw [hl] at e2
  refine ⟨w2, ⟨someKeys, w1, 0, _, none, [(.kdf (some ()) (some 0) 3 (some (oneSlice y.1)) (some none), .ok)], someKeys_ok, rfl, gx, ex, e1, .cons ?_ ?_ (.nil _), ?_⟩,
    ⟨w1, w2, 0, _, none, [], ok1, hp, gy, ey, e2, .nil _, by simp⟩⟩
  · exact ⟨fun p hp' => by simp only [Option.some.injEq] at hp'; subst hp'; exact ⟨_, hp⟩, fun g hg => by simp only [Option.some.injEq] at hg; subst hg; exact gy⟩
  · simp only [KeyOp.run]
    rw [bindB e2]
    rfl
  · intro z hz
    simp only [List.mem_singleton] at hz
    subst hz
    exact id

theorem calm_issued (x y : Bytes × Name) (hx : LayerArg x) (hy : LayerArg y) :
    ∃ cert, IssuedBy calmLib (exactVerifier calmLib) (exampleLayer x) (exampleLayer y) cert := by
  obtain ⟨w, dx, dy⟩ := calm_keys x y hx hy
  obtain ⟨hw, kx, lx, ix⟩ := dx.live calmLib_standard
  obtain ⟨-, ky, ly, iy⟩ := dy.live calmLib_standard
  have tx : kx.type = 3 := ix.1
  have ty : ky.type = 3 := iy.1
  have harg : TbsArg ⟨[], [], false⟩ exampleContent { exampleTbs with issuerName := x.2, subjectName := y.2 } :=
    { exampleTbs_arg ⟨[], [], false⟩ with issuer := hx.2.1, subject := hy.2.1 }
  obtain ⟨c, w', e⟩ := C60_succeeds calmLib calmLib_standard _ calmLib_accepts (fun _ => rfl) w hw 5 4 ky kx ly lx (.inr (.inr ty)) (.inr (.inr tx)) ⟨[], [], false⟩ exampleContent
    _ harg 0 (List.replicate 97 0) (List.replicate 104 0) (List.replicate 4000 0) (by rw [List.length_replicate]; decide) (by rw [List.length_replicate]; decide)
    (by rw [List.length_replicate]; decide) (by
      intro key s hkey hs
      rw [tx, ty, List.length_replicate]
      unfold issuedDer
      have n1 := hx.2.2
      have n2 := hy.2.2
      simp only [Size.len_cons _ _ (show 16 < 31 by decide), Size.len_all_cons, Size.len_nil, List.cons_append, List.nil_append, Size.len_prim _ _ (show 3 < 31 by decide), List.length_cons]
      have a1 : (Der.cons 2 0 [integer 2]).encode.length ≤ 10 := by decide +kernel
      have a2 : (serialDer (serialValue exampleTbs.serialNumber)).encode.length ≤ 10 := by decide +kernel
      have a3 : (signatureAlgorithm 3).encode.length ≤ 20 := by decide +kernel
      have a4 : (periodValue exampleTbs.validity).der.encode.length ≤ 50 := by decide +kernel
      have a5 : (keyAlgorithm 3).encode.length ≤ 20 := by decide +kernel
      have a6 : (encodeAll (extensionsDers (extensionsValue exampleContent exampleTbs.extensions))).length ≤ 100 := by decide +kernel
      have a7 := element_le (n := key.length + 1) 98 (by omega) (by decide)
      have a8 := element_le (n := s.length + 1) 105 (by omega) (by decide)
      have a9 := element_le (n := (keyAlgorithm 3).encode.length + (Size.element (key.length + 1) + 0)) 150 (by omega) (by decide)
      refine Nat.le_trans (element_le 3900 (Nat.le_trans (Nat.add_le_add_right (element_le 3000 ?_ (by decide)) _) ?_) (by decide)) (by decide)
      · omega
      · omega)
  rw [tx, ty] at e
  exact ⟨c, calmLib, w, 4, 5, _, _, _, _, _, _, _, _, calmLib_standard, calmLib_accepts, ⟨rfl, rfl⟩, dx, dy, harg, rfl, rfl, by rw [List.length_replicate]; decide, by rw [List.length_replicate]; decide,
    by rw [List.length_replicate]; decide, by rw [List.length_replicate]; decide, by rw [List.length_replicate]; decide, e⟩

/-- Non-vacuity: there are chains of any length. -/
theorem C79_exists (x : Bytes × Name) (xs : List (Bytes × Name)) (hx : LayerArg x) (hxs : ∀ y ∈ xs, LayerArg y) :
    ∃ certs, certs.length = xs.length ∧ IssuedChain calmLib (exactVerifier calmLib) (exampleLayer x) certs (exampleLayer ((x :: xs).getLast (by simp))) := by
  induction xs generalizing x with
  | nil => exact ⟨[], rfl, .nil _⟩
  | cons y ys ih =>
    obtain ⟨cert, h⟩ := calm_issued x y hx (hxs y (by simp))
    obtain ⟨certs, hl, hc⟩ := ih y (hxs y (by simp)) (fun z hz => hxs z (by simp [hz]))
    refine ⟨cert :: certs, by simp [hl], ?_⟩
    rw [List.getLast_cons (by simp)]
    exact .cons (.inr (.inr rfl)) h hc

example : LayerArg ([7, 8, 9], exampleName) ∧ LayerArg ([], exampleName) := by
  refine ⟨⟨by decide, exampleName_arg, by decide +kernel⟩, ⟨by decide, exampleName_arg, by decide +kernel⟩⟩

theorem calm_read (x : Bytes × Name) (hx : LayerArg x) : ∃ key, PublicKeyRead calmLib (exampleLayer x) key := by
  obtain ⟨w, dx, -⟩ := calm_keys x x hx hx
  obtain ⟨hw, kx, lx, ix⟩ := dx.live calmLib_standard
  have tx : kx.type = 3 := ix.1
  obtain ⟨⟨e, o, n⟩, w2, e1, _, _, hr⟩ := C49_public_key calmLib calmLib_standard (some ()) (some 4) (some (List.replicate 32 0)) (some 32) w hw (live_handle lx)
    (fun d sz h1 h2 => by simp only [Option.some.injEq] at h1 h2; subst h1 h2; decide)
  rcases hr with ⟨h1, hr⟩ | ⟨_, _, i, _, _, h⟩
  · rw [live_object lx] at h1
    have h2 : documentedPublicKeyError (some ()) (some kx) (some (List.replicate 32 0)) (some 32) = .ok := by
      unfold documentedPublicKeyError
      simp only [tx]
      decide
    rw [h2] at h1
    simp only at h1
    subst h1
    obtain ⟨m, d, val, _, _, _, _, h3, h4⟩ := hr
    simp only at h3 h4
    subst h3 h4
    exact ⟨_, calmLib, w, 4, _, _, _, _, w2, calmLib_standard, ⟨rfl, rfl⟩, dx, by decide, e1, rfl⟩
  · simp [calmLib] at h

/-- The statement for three layers. -/
example : ∃ cert cert' root leaf, PathValid (exactVerifier calmLib) 3 root (nameDer (nameValue (some exampleName))) [cert, cert'] 3 leaf (nameDer (nameValue (some exampleName))) := by
  have a : ∀ c : Bytes, c.length < 2 ^ 64 → LayerArg (c, exampleName) := fun c hc => ⟨hc, exampleName_arg, show (nameDer (nameValue (some exampleName))).encode.length ≤ 1000 by decide +kernel⟩
  obtain ⟨certs, hl, hc⟩ := C79_exists ([7, 8, 9], exampleName) [([], exampleName), ([1], exampleName)] (a _ (by decide))
    (fun y hy => by simp only [List.mem_cons, List.not_mem_nil, or_false] at hy; rcases hy with rfl | rfl <;> exact a _ (by decide))
  obtain ⟨root, hr⟩ := calm_read _ (a [7, 8, 9] (by decide))
  obtain ⟨leaf, hf⟩ := calm_read _ (a [1] (by decide))
  match certs, hl with
  | [c, c'], _ => exact ⟨c, c', root, leaf, C79_chain calmLib (exactVerifier calmLib) _ _ _ (.inr (.inr rfl)) hc root leaf hr hf⟩

end Nat20

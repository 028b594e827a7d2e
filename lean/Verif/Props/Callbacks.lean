import Verif.Lemmas.Callbacks
import Verif.Props.X509
/-!
# C94: callbacks with a memory

`Model/Callbacks.lean` models the functions that call callbacks with a memory the callbacks may read and change.  `Callbacks.lastFirst` (`Spec/Callbacks.lean`) says what happens
when each of the callbacks of a list is called exactly once, the last one first.  `Callbacks.Gives w bs v`: in every stream state, `w` prepends `bs` and returns `v`.
-/

namespace Nat20

open Der Pki Callbacks

/-- **C94.** `n20_asn1_header_with_content` (and with it `n20_asn1_sequence`) calls its callback exactly once, whatever the state of the stream, also if it is NULL or overflowed:
the octets are those of one call, and so is the memory. -/
theorem C94_header_with_content {σ : Type} (cls : UInt8) (hc : cls.toNat < 4) (constructed : Bool) (tag : UInt32) (cb : Option (Callback σ)) (f : Behaviour σ) (h : Acts cb f)
    (ti : TagInfo) (m : σ) :
    Gives (Callbacks.asn1HeaderWithContent cls constructed tag cb ti m) (ti.tagging.element cls.toNat constructed tag.toNat (f m).1) (f m).2 := by
  refine Gives.ofV ?_
  cases cb with
  | none =>
    have := Callbacks.prepends_hwc cls constructed tag hc (cb := fun m => Pure.pure m) (PrependsV.pure m) ti
    have e := h m
    rw [e]
    exact this
  | some cb => exact Callbacks.prepends_hwc cls constructed tag hc (h m).toV ti

/-- **C94.** `n20_x509_cert` calls the callback of each extension exactly once, those at the end of the list first, whatever the state of the stream.  The strict parser reads the
certificate in which the value of each extension is what its callback rendered then. -/
theorem C94_certificate {σ : Type} (fr : Frame) (f : Callbacks.Extension σ → Behaviour σ) (x : Callbacks.X509 σ) (t : Callbacks.Tbs σ) (ht : x.tbs = some t)
    (h : CertArg fr (fun _ => []) x.bare) (he : Callbacks.ExtensionsArg f t.extensions) (m : σ) :
    ∃ bs, Gives (Callbacks.x509Cert fr (some x) m) bs (lastFirst (t.extensions.announced.map f) m).2 ∧
      (bs.length < 2 ^ 64 → Der.parse bs = some (x.value (extValues t.extensions.announced f m)).der) :=
  ⟨_, Gives.ofV (Callbacks.prepends_cert fr f x t ht h he m), fun hl => strictly_parsed _ (classOk_value x _) hl⟩

/-- **C94.** Rendering twice (for example to learn the size first) calls each callback twice; the second time the callbacks find the memory that the first time left.  If what they
render does not depend on their memory, both give the same octets. -/
theorem C94_twice {σ : Type} (fr : Frame) (f : Callbacks.Extension σ → Behaviour σ) (x : Callbacks.X509 σ) (t : Callbacks.Tbs σ) (ht : x.tbs = some t)
    (h : CertArg fr (fun _ => []) x.bare) (he : Callbacks.ExtensionsArg f t.extensions) (hf : ∀ e ∈ t.extensions.announced, ∀ m m', (f e m).1 = (f e m').1) (m : σ) :
    let once := fun m => (lastFirst (t.extensions.announced.map f) m).2
    ∃ bs, Gives (Callbacks.x509Cert fr (some x) m) bs (once m) ∧ Gives (Callbacks.x509Cert fr (some x) (once m)) bs (once (once m)) := by
  refine ⟨_, Gives.ofV (Callbacks.prepends_cert fr f x t ht h he m), ?_⟩
  have := Gives.ofV (Callbacks.prepends_cert fr f x t ht h he (lastFirst (t.extensions.announced.map f) m).2)
  have e : extValues t.extensions.announced f (lastFirst (t.extensions.announced.map f) m).2 = extValues t.extensions.announced f m := by
    unfold extValues
    rw [lastFirst_const _ _ _ m]
    intro g hg
    obtain ⟨a, ha, rfl⟩ := List.mem_map.1 hg
    exact hf a ha
  rw [e] at this
  exact this

/-- **C94.** For callbacks that do not use a memory this model and the one of the other properties are the same, in every stream state and also where the behaviour is undefined. -/
theorem C94_without_memory {σ : Type} (fr : Frame) (x : Nat20.X509) (m : σ) :
    Callbacks.x509Cert fr (some (X509.plain x)) m = (do Nat20.x509Cert fr (some x); Pure.pure m) := cert_plain fr x m

/-! ## Examples -/

/-- A callback that renders how often callbacks have been called so far. -/
def counting : Callback Nat := fun m => do
  prependLocal [UInt8.ofNat m]
  Pure.pure (m + 1)

theorem counting_acts : Acts (some counting) fun m => ([UInt8.ofNat m], m + 1) := fun m =>
  Gives.ofV (((prepends_byte (UInt8.ofNat m)).toV.bind (f := fun _ => Pure.pure (m + 1)) (PrependsV.pure (m + 1))).congr rfl)

/-- Three extensions, one of them without callback. -/
def countedExtensions : Callbacks.Extensions Nat :=
  ⟨3, some [⟨some OID_KEY_USAGE, true, some counting⟩, ⟨some OID_TCG_DICE_UEID, false, none⟩, ⟨some OID_BASIC_CONSTRAINTS, true, some counting⟩]⟩

def countedTbs : Callbacks.Tbs Nat :=
  ⟨exampleTbs.serialNumber, exampleTbs.signatureAlgorithm, exampleName, exampleTbs.validity, exampleName, exampleKey, countedExtensions⟩

def countedCert : Callbacks.X509 Nat := ⟨some countedTbs, exampleCert.signatureAlgorithm, exampleCert.signatureBits, exampleCert.signature⟩

/-- What the callbacks do. -/
def countedBehaviour (e : Callbacks.Extension Nat) : Behaviour Nat := fun m => if e.contentCb.isSome then ([UInt8.ofNat m], m + 1) else ([], m)

theorem countedCert_arg (fr : Frame) : CertArg fr (fun _ => []) countedCert.bare where
  tbs := by
    intro t ht
    cases ht
    have h := exampleTbs_arg fr
    exact ⟨h.serial, h.issuer, h.validity, h.subject, h.spki, fun l hl => by cases hl⟩
  signature := (exampleCert_arg fr).signature

theorem countedExtensions_arg : Callbacks.ExtensionsArg countedBehaviour countedExtensions := by
  refine ⟨fun l hl => by cases hl; decide, fun x hx => ?_⟩
  simp only [Extensions.announced, countedExtensions, Option.getD_some, show (3 : UInt64).toNat = 3 from rfl, List.take_succ_cons, List.take_zero, List.mem_cons,
    List.not_mem_nil, or_false] at hx
  rcases hx with rfl | rfl | rfl
  · exact counting_acts
  · exact fun m => rfl
  · exact counting_acts

/-- Non-vacuity of C94: from a count of 7, the last extension gets 7 and the first one 8; the count ends at 9. -/
example : (∀ fr, CertArg fr (fun _ => []) countedCert.bare) ∧ Callbacks.ExtensionsArg countedBehaviour countedTbs.extensions ∧
    extValues countedTbs.extensions.announced countedBehaviour 7 =
      [⟨some [2, 5, 29, 15], true, [8]⟩, ⟨some [2, 23, 133, 5, 4, 4], false, []⟩, ⟨some [2, 5, 29, 19], true, [7]⟩] ∧
    (lastFirst (countedTbs.extensions.announced.map countedBehaviour) 7).2 = 9 :=
  ⟨countedCert_arg, countedExtensions_arg, by simp [extValues, countedTbs, countedExtensions, Extensions.announced, lastFirst, countedBehaviour]; decide, rfl⟩

example := C94_certificate ⟨[], [], false⟩ countedBehaviour countedCert countedTbs rfl (countedCert_arg _) countedExtensions_arg 7

/-- A callback that counts its calls and always renders the same. -/
def steady : Callback Nat := fun m => do
  prependLocal [5, 0]
  Pure.pure (m + 1)

def steadyTbs : Callbacks.Tbs Nat := { countedTbs with extensions := ⟨2, some [⟨some OID_KEY_USAGE, true, some steady⟩, ⟨some OID_TCG_DICE_UEID, false, some steady⟩]⟩ }

def steadyCert : Callbacks.X509 Nat := { countedCert with tbs := some steadyTbs }

theorem steadyCert_arg (fr : Frame) : CertArg fr (fun _ => []) steadyCert.bare where
  tbs := by
    intro t ht
    cases ht
    have h := exampleTbs_arg fr
    exact ⟨h.serial, h.issuer, h.validity, h.subject, h.spki, fun l hl => by cases hl⟩
  signature := (exampleCert_arg fr).signature

theorem steadyExtensions_arg : Callbacks.ExtensionsArg (fun _ m => ([5, 0], m + 1)) steadyTbs.extensions := by
  refine ⟨fun l hl => by cases hl; decide, fun x hx => ?_⟩
  simp only [Extensions.announced, steadyTbs, Option.getD_some, show (2 : UInt64).toNat = 2 from rfl, List.take_succ_cons, List.take_zero, List.mem_cons,
    List.not_mem_nil, or_false] at hx
  have h : Acts (some steady) fun m => ([5, 0], m + 1) := fun m =>
    Gives.ofV (((prepends_local [5, 0] (by decide)).toV.bind (f := fun _ => Pure.pure (m + 1)) (PrependsV.pure (m + 1))).congr rfl)
  rcases hx with rfl | rfl
  · exact h
  · exact h

/-- Non-vacuity of C94 for two renderings: each of the two callbacks is called twice. -/
example := C94_twice ⟨[], [], false⟩ (fun _ m => ([5, 0], m + 1)) steadyCert steadyTbs rfl (steadyCert_arg _) steadyExtensions_arg (fun _ _ _ _ => rfl) 0

/-- A callback that renders one octet more every time. -/
def growing : Callback Nat := fun m => do
  prependLocal (List.replicate (m % 200) 0)
  Pure.pure (m + 1)

/-- **C94, where it ends.** With callbacks whose output grows, the size learnt from a first rendering is too small for the second one: the `n20_asn1_sequence` of such a callback needs 3 octets
the first time and 4 the second time. -/
theorem C94_growing :
    ((Callbacks.asn1Sequence (some growing) tagInfoNoOverride 1 (some (streamInit none 0))).toOption.bind fun r => r.2.map fun s => (r.1, s.writePosition)) = some (2, 3) ∧
    ((Callbacks.asn1Sequence (some growing) tagInfoNoOverride 2 (some (streamInit (some [9, 9, 9]) 3))).toOption.bind fun r => r.2.map fun s => (r.1, s.bufferOverflow)) =
      some (3, true) := by
  constructor <;> decide +kernel

end Nat20

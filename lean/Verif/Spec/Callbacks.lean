import Verif.Spec.Stream
import Verif.Spec.X509
import Verif.Model.Callbacks
/-!
# What callbacks with a memory do, and what is expected of the functions that call them
-/

namespace Nat20.Callbacks

open Pki

variable {σ : Type}

/-- `w` prepends exactly `bs` to the stream and returns `v`, in every well-formed stream state; it does no harm to a NULL stream. -/
structure Gives {α : Type} (w : W α) (bs : Bytes) (v : α) : Prop where
  null : w none = .ok (v, none)
  run : ∀ s : Stream, s.WF → ∃ s' : Stream, w (some s) = .ok (v, some s') ∧ s'.WF ∧ Prepended s s' bs

/-- What a callback does: from the memory it finds follow the octets it renders and the memory it leaves. -/
abbrev Behaviour (σ : Type) := σ → Bytes × σ

/-- The callback has this behaviour; a NULL callback does nothing. -/
def Acts (cb : Option (Callback σ)) (f : Behaviour σ) : Prop :=
  match cb with
  | none => ∀ m, f m = ([], m)
  | some cb => ∀ m, Gives (cb m) (f m).1 (f m).2

/-- Each of the callbacks is called once, the last one first: the octets of each of them (in the order of the list) and the memory in the end. -/
def lastFirst : List (Behaviour σ) → σ → List Bytes × σ
  | [], m => ([], m)
  | f :: fs, m => ((f (lastFirst fs m).2).1 :: (lastFirst fs m).1, (f (lastFirst fs m).2).2)

/-- The extension values when the callbacks are called like that. -/
def extValues (l : List (Extension σ)) (f : Extension σ → Behaviour σ) (m : σ) : List Ext :=
  (l.zip (lastFirst (l.map f) m).1).map fun p => ⟨oidValue p.1.oid, p.1.critical, p.2⟩

/-- The TBS input without extensions. -/
def Tbs.bare (t : Tbs σ) : Nat20.Tbs :=
  ⟨t.serialNumber, t.signatureAlgorithm, t.issuerName, t.validity, t.subjectName, t.subjectPublicKeyInfo, ⟨0, none⟩⟩

/-- The certificate input without extensions. -/
def X509.bare (x : X509 σ) : Nat20.X509 := ⟨x.tbs.map Tbs.bare, x.signatureAlgorithm, x.signatureBits, x.signature⟩

/-- The extensions announced. -/
def Extensions.announced (e : Extensions σ) : List (Extension σ) := (e.extensions.getD []).take e.extensionsCount.toNat

/-- All elements announced are accessible, and `f` says what their callbacks do. -/
def ExtensionsArg (f : Extension σ → Behaviour σ) (e : Extensions σ) : Prop :=
  (∀ l, e.extensions = some l → e.extensionsCount.toNat ≤ l.length) ∧ ∀ x ∈ e.announced, Acts x.contentCb (f x)

/-- The field values of the certificate, with these extensions. -/
def X509.value (x : X509 σ) (extensions : List Ext) : CertValue :=
  { certValue (fun _ => []) x.bare with tbs := x.tbs.map fun t => { tbsValue (fun _ => []) t.bare with extensions := extensions } }

/-! ## Callbacks without memory as callbacks that leave the memory alone -/

def Extension.plain (e : Nat20.Extension) : Extension σ := ⟨e.oid, e.critical, e.contentCb.map fun w m => do w; Pure.pure m⟩

def Extensions.plain (e : Nat20.Extensions) : Extensions σ := ⟨e.extensionsCount, e.extensions.map (·.map Extension.plain)⟩

def Tbs.plain (t : Nat20.Tbs) : Tbs σ :=
  ⟨t.serialNumber, t.signatureAlgorithm, t.issuerName, t.validity, t.subjectName, t.subjectPublicKeyInfo, Extensions.plain t.extensions⟩

def X509.plain (x : Nat20.X509) : X509 σ := ⟨x.tbs.map Tbs.plain, x.signatureAlgorithm, x.signatureBits, x.signature⟩

end Nat20.Callbacks

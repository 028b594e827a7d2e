import Verif.Spec.Writers
/-!
# Specification: how many steps a call makes

A step is whatever `Prog.step` does at once: an access to one octet of memory, a branch, an access to a word of the hash state, or the
beginning or end of the lifetime of a local array.
-/

namespace Nat20

/-- The program comes to its end within `n` steps, whatever the octets are that it reads at its loads: with a result, or with
undefined behaviour other than a loop without end.  For its result and the number of steps that it could still have made, `Q` holds. -/
inductive Prog.Ends {α : Type} (Q : α → Nat → Prop) : Nat → Prog α → Prop where
  | done (n : Nat) (x : α) (h : Q x n) : Ends Q n (.done x)
  | crash (n : Nat) (u : UB) (h : u ≠ .diverges) : Ends Q n (.crash u)
  | load (n : Nat) (a : Addr) (k : UInt8 → Prog α) (hk : ∀ b, Ends Q n (k b)) : Ends Q (n + 1) (.load a k)
  | store (n : Nat) (a : Addr) (b : UInt8) (k : Prog α) (hk : Ends Q n k) : Ends Q (n + 1) (.store a b k)
  | note (n : Nat) (e : Event) (k : Prog α) (hk : Ends Q n k) : Ends Q (n + 1) (.note e k)
  | alloc (n : Nat) (r : Region) (i : Bytes) (k : Prog α) (hk : Ends Q n k) : Ends Q (n + 1) (.alloc r i k)
  | free (n : Nat) (r : Region) (s : Bool) (k : Prog α) (hk : Ends Q n k) : Ends Q (n + 1) (.free r s k)
  | leave (n : Nat) (b : Bytes) (k : Prog α) (hk : Ends Q n k) : Ends Q (n + 1) (.leave b k)

/-- The program has ended. -/
def Prog.Ended {α : Type} (p : Prog α) : Prop := (∃ x, p = .done x) ∨ ∃ u, u ≠ .diverges ∧ p = .crash u

/-! ## Digests -/

/-- The number of octets of a gather list. -/
def MList.octets (g : MList) : Nat := (g.slices.map fun s => s.size.toNat).sum

/-- The lists of a message. -/
def listsOf (msg : Option (List MList)) (count : UInt64) : List MList := (msg.getD []).take count.toNat

/-- Steps of a digest of a message with this number of lists, slices and octets. -/
def digestBudget (lists slices octets : Nat) : Nat := 3900 + 3 * lists + 8 * slices + 22 * octets

/-- Steps of an HMAC with a key of `key` octets for a message with this number of slices and octets. -/
def hmacBudget (key slices octets : Nat) : Nat := 20000 + 8 * slices + 22 * (key + octets)

/-- Steps of the second half of HKDF, with blocks of `block` octets, for a key of `octets` octets. -/
def expandBudget (block prk info octets : Nat) : Nat := 300 + (octets / block + 1) * (hmacBudget prk 3 (64 + info + 1) + 3)

/-- Steps of a call. -/
def Call.budget : Call → Nat
  | .digest _ msg count _ _ => digestBudget (listsOf msg count).length ((listsOf msg count).map fun g => g.slices.length).sum ((listsOf msg count).map MList.octets).sum
  | .hmac _ key msg _ _ => hmacBudget key.size.toNat (msg.elim 0 fun g => g.slices.length) (msg.elim 0 MList.octets)
  | .extract _ ikm salt _ _ => 10 + hmacBudget salt.size.toNat 1 ikm.size.toNat
  | .expand alg prk info octets _ => expandBudget (digestOctets alg) prk.size.toNat info.size.toNat octets.toNat
  | .hkdf alg ikm salt info octets _ => 100 + hmacBudget salt.size.toNat 1 ikm.size.toNat + expandBudget (digestOctets alg) 64 info.size.toNat octets.toNat

/-! ## Rendering

In the programs of the rendering functions (`Model/Writers`) a step is an access to an octet of the buffer or of what is rendered. -/

/-- Steps of a name: so many for each element and each of its octets. -/
def RName.budget (n : RName) : Nat := 30 + ((n.elements.toList.take n.elementCount.toNat).map fun r => 150 + 3 * r.value.size.toNat).sum

/-- Steps of the extensions; `K` are those of the callbacks. -/
def RExtensions.budget {κ : Type} (K : κ → Nat) (e : RExtensions κ) : Nat :=
  30 + (((e.extensions.getD []).take e.extensionsCount.toNat).map fun x => 150 + x.contentCb.elim 0 K).sum

/-- Steps of the part of a certificate that is signed. -/
def RTbs.budget {κ : Type} (K : κ → Nat) (t : RTbs κ) : Nat :=
  1000 + t.extensions.budget K + t.issuerName.budget + t.subjectName.budget +
    3 * (bitOctets t.subjectPublicKeyInfo.publicKeyBits + t.validity.notBefore.size.toNat + t.validity.notAfter.size.toNat + t.serialNumber.size.toNat)

/-- Steps of a certificate. -/
def RX509.budget {κ : Type} (K : κ → Nat) (c : RX509 κ) : Nat := 300 + 3 * bitOctets c.signatureBits + c.tbs.elim 0 (RTbs.budget K)

/-- Steps of the contents of the Open DICE extension. -/
def ROpenDiceInput.budget (i : ROpenDiceInput) : Nat :=
  500 + 3 * (i.codeHash.size.toNat + i.codeDescriptor.size.toNat + i.configurationHash.size.toNat + i.configurationDescriptor.size.toNat + i.authorityHash.size.toNat +
    i.authorityDescriptor.size.toNat + i.profileName.size.toNat)

/-- Steps of the contents of the TCB info extension. -/
def RTcbInfo.budget (t : RTcbInfo) : Nat :=
  1000 + 3 * (t.vendor.size.toNat + t.model.size.toNat + t.version.size.toNat + t.vendorInfo.size.toNat + t.type.size.toNat) +
    (((t.fwids.getD []).take t.fwidsCount.toNat).map fun f => 150 + 3 * f.digest.size.toNat).sum

/-- Steps of the contents of the multi TCB info extension. -/
def RMultiTcbInfo.budget (i : RMultiTcbInfo) : Nat := 30 + (((i.list.getD []).take i.count.toNat).map RTcbInfo.budget).sum

/-- Steps of a call of a rendering function; `K` are those of the callbacks. -/
def RCall.budget {κ : Type} (K : κ → Nat) : RCall κ → Nat
  | streamPrepend _ len => 3 * len.toNat
  | integer n _ _ _ => 50 + 3 * n.size.toNat
  | bitstring _ bits _ => 50 + 3 * bitOctets bits
  | octetstring s _ => 50 + 3 * s.elim 0 (·.size.toNat)
  | utf8String s _ => 50 + 3 * s.elim 0 (·.size.toNat)
  | printablestring s _ => 50 + 3 * s.elim 0 (·.size.toNat)
  | generalizedTime s _ => 50 + 3 * s.elim 0 (·.size.toNat)
  | headerWithContent _ _ _ cb _ => 50 + cb.elim 0 K
  | sequence cb _ => 50 + cb.elim 0 K
  | cborByteString s => 50 + 3 * s.size.toNat
  | cborTextString s => 50 + 3 * s.size.toNat
  | name n => 60 + n.elim 0 RName.budget
  | extension e => e.elim 0 (RExtensions.budget K)
  | certTbs _ t => 50 + t.elim 0 (RTbs.budget K)
  | cert _ c => 50 + c.elim 0 (RX509.budget K)
  | openDiceInput _ c => c.elim 0 ROpenDiceInput.budget
  | tcbFreshness c => 100 + 3 * c.elim 0 (·.size.toNat)
  | tcbInfo _ c => c.elim 0 RTcbInfo.budget
  | multiTcbInfo _ c => c.elim 0 RMultiTcbInfo.budget
  | ueid c => 100 + 3 * c.elim 0 (·.size.toNat)
  | _ => 150

/-- Steps of the calls that a callback makes. -/
def Content.budget : (n : Nat) → Content n → Nat
  | 0, c => nomatch c
  | n + 1, cs => (List.map (RCall.budget (Content.budget n)) cs).sum

/-- Steps of what a thread does. -/
def Job.budget : Job → Nat
  | .call c => c.budget
  | .render n cs _ => Content.budget n cs

end Nat20

import Verif.Props.Dice
/-!
# Specification: what a certificate says about a device
-/

namespace Nat20

open Der Pki

/-- What an extension says, independently of its encoding. -/
inductive Claim where
  | basicConstraints (isCa : Bool) (pathLength : Option Nat)
  | keyUsage (has : Fin 9 → Bool)
  | openDiceInput (v : OpenDiceValue)
  | tcbInfo (v : TcbInfoValue)
  | multiTcbInfo (l : List TcbInfoValue)
  | ueid (octets : Bytes)
  | freshness (nonce : Bytes)

/-- Which type of extension it is. -/
def Claim.kind : Claim → Nat
  | .basicConstraints _ _ => 0
  | .keyUsage _ => 1
  | .openDiceInput _ => 2
  | .tcbInfo _ => 3
  | .multiTcbInfo _ => 4
  | .ueid _ => 5
  | .freshness _ => 6

/-- The callback of the extension is that of the library for this type of extension, with a context that is legal and means the claim (OIDs of hash algorithms are standard, see C14). -/
inductive Extension.States (fr : Frame) (e : Extension) : Claim → Prop where
  | basicConstraints (bc : BasicConstraints) (hcb : e.contentCb = some (basicConstraintsContent fr (some bc)))
      (h : bc.isCa = true → bc.hasPathLength = true → bc.pathLength = 0 → fr.adjacent ≠ []) :
      States fr e (.basicConstraints bc.isCa (if bc.isCa ∧ bc.hasPathLength then some bc.pathLength.toNat else none))
  | keyUsage (flags : List (Fin 9)) (hcb : e.contentCb = some (keyUsageContent (some (keyUsageOf flags)))) : States fr e (.keyUsage fun i => decide (i ∈ flags))
  | openDiceInput (i : OpenDiceInput) (hcb : e.contentCb = some (openDiceInputContent fr (some i))) (h : OpenDiceArg fr i) : States fr e (.openDiceInput (openDiceValue i))
  | tcbInfo (t : TcbInfo) (hcb : e.contentCb = some (tcbInfoContent fr (some t))) (h : TcbInfoArg fr t) (ho : FwidsOk (tcbInfoValue t)) : States fr e (.tcbInfo (tcbInfoValue t))
  | multiTcbInfo (m : MultiTcbInfo) (hcb : e.contentCb = some (multiTcbInfoContent fr (some m)))
      (h : ∀ l, m.list = some l → m.count.toNat ≤ l.length ∧ ∀ t ∈ l.take m.count.toNat, TcbInfoArg fr t) (ho : ∀ t ∈ (m.list.getD []).take m.count.toNat, FwidsOk (tcbInfoValue t)) :
      States fr e (.multiTcbInfo (((m.list.getD []).take m.count.toNat).map tcbInfoValue))
  | ueid (s : Slice) (hcb : e.contentCb = some (ueidContent (some s))) (h : s.Valid) : States fr e (.ueid s.bytes)
  | freshness (s : Slice) (hcb : e.contentCb = some (freshnessContent (some s))) (h : s.Valid) : States fr e (.freshness s.bytes)

/-- The extensions of a certificate that are announced. -/
def Tbs.listed (t : Tbs) : List Extension := (t.extensions.extensions.getD []).take t.extensions.extensionsCount.toNat

/-- As many extensions with the same critical flags, and those of the same type at the same place mean the same. -/
def Tbs.SaysSame (t : Tbs) (fr fr' : Frame) (t' : Tbs) : Prop :=
  t.listed.length = t'.listed.length ∧
  ∀ (k : Nat) (e e' : Extension), t.listed[k]? = some e → t'.listed[k]? = some e' → e.critical = e'.critical ∧ ∀ c c', e.States fr c → e'.States fr' c' → c.kind = c'.kind → c = c'

end Nat20

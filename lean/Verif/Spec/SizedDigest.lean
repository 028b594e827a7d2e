import Verif.Spec.Sized
import Verif.Model.SizedDigest
/-!
# Arguments and results of the digest functions on a platform with a `size_t` of 64 bits
-/

namespace Nat20.Sized

variable {w : Nat}

/-- The same list of slices. -/
def GatherList.wide (g : GatherList w) : Nat20.GatherList := ⟨toUInt64 g.count, g.list.map (·.map Slice.wide)⟩

/-- The same result. -/
def Reply.wide (r : Reply w) : Nat20.Reply := ⟨r.err, r.out, r.size.map toUInt64⟩

/-- Functions for digests that do the same: they have the same result (error code, contents of the output buffer, size) and undefined behaviour in the same cases. -/
def SameDigest (f : DigestFn w) (g : Nat20.DigestFn) : Prop := ∀ alg msg count out size,
  (f alg msg count out size).map Reply.wide = g alg (msg.map (·.map GatherList.wide)) (toUInt64 count) out (size.map toUInt64)

def SameHmac (f : HmacFn w) (g : Nat20.HmacFn) : Prop := ∀ alg key msg out size,
  (f alg key msg out size).map Reply.wide = g alg key.wide (msg.map GatherList.wide) out (size.map toUInt64)

def SameExtract (f : ExtractFn w) (g : Nat20.ExtractFn) : Prop := ∀ alg ikm salt prk size,
  (f alg ikm salt prk size).map Reply.wide = g alg ikm.wide salt.wide prk (size.map toUInt64)

def SameExpand (f : ExpandFn w) (g : Nat20.ExpandFn) : Prop := ∀ alg prk info keyOctets out,
  f alg prk info keyOctets out = g alg prk.wide info.wide (toUInt64 keyOctets) out

def SameHkdf (f : HkdfFn w) (g : Nat20.HkdfFn) : Prop := ∀ alg ikm salt info keyOctets out,
  f alg ikm salt info keyOctets out = g alg ikm.wide salt.wide info.wide (toUInt64 keyOctets) out

/-- The function is given the size of the digest and leaves it. -/
def KeepsSize (hmac : HmacFn w) : Prop := ∀ alg key msg out r, hmac alg key msg out (some (digestEnumToSize alg)) = .ok r → r.size = some (digestEnumToSize alg)

end Nat20.Sized

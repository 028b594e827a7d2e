import Verif.Lemmas.SizedDigest
import Verif.Model.SizedBssl
/-!
# Lemmas for C85: the context on top of the reference library with another `size_t`
-/

namespace Nat20.Sized

open Fips

variable {w : Nat} (hw : w ≤ 64) (hw' : 16 ≤ w)

/-! ## Mapping results -/

theorem then_ {α β γ : Type} (f : β → γ) {x : B α} {k : α → B β} {k' : α → B γ} (h : ∀ a, f <$> k a = k' a) : f <$> (x >>= k) = x >>= k' := by
  rw [_root_.map_bind]
  exact bind_congr h

theorem then_of {α β γ δ : Type} (f : β → γ) (g : α → δ) {x : B α} {y : B δ} {k : α → B β} {k' : δ → B γ} (hx : g <$> x = y) (h : ∀ a, f <$> k a = k' (g a)) :
    f <$> (x >>= k) = y >>= k' := by
  subst hx
  rw [_root_.map_bind, bind_map_left]
  exact bind_congr h

theorem ite_ {α β : Type} (f : α → β) {c c' : Prop} [Decidable c] [Decidable c'] (hc : c ↔ c') {x y : B α} {x' y' : B β} (h : c → f <$> x = x') (h' : ¬ c → f <$> y = y') :
    f <$> (if c then x else y) = if c' then x' else y' := by
  by_cases hh : c
  · rw [if_pos hh, if_pos (hc.1 hh), h hh]
  · rw [if_neg hh, if_neg (fun x => hh (hc.2 x)), h' hh]

theorem ite_eq {α : Type} {c c' : Prop} [Decidable c] [Decidable c'] (hc : c ↔ c') {x y x' y' : α} (h : c → x = x') (h' : ¬ c → y = y') :
    (if c then x else y) = if c' then x' else y' := by
  by_cases hh : c
  · rw [if_pos hh, if_pos (hc.1 hh), h hh]
  · rw [if_neg hh, if_neg (fun x => hh (hc.2 x)), h' hh]

theorem lift_ {α β : Type} (f : α → β) (x : Except UB α) : f <$> liftB x = liftB (x.map f) := by
  funext wd
  cases x <;> rfl

/-! ## Digests -/

include hw in
theorem readSlice_eq (p : Ptr) (n : BitVec w) : readSlice p n = Nat20.readSlice p (toUInt64 n) := by
  unfold readSlice Nat20.readSlice
  rw [toUInt64_toNat hw]

include hw in
theorem readArg_eq (s : Slice w) : readArg s = Nat20.readArg s.wide := by
  obtain ⟨n, p⟩ := s
  unfold readArg Nat20.readArg Slice.wide
  cases p with
  | none => exact ite_eq (zero_iff hw _) (fun _ => rfl) fun _ => rfl
  | some p => exact readSlice_eq hw p n

include hw' in
theorem bsslSize_eq (alg : UInt32) : toUInt64 (bsslDigestSize alg : BitVec w) = Nat20.bsslDigestSize alg := enum_eq hw' alg

include hw in
theorem slices_eq (n : Nat) (l : List (Slice w)) (acc : Bytes) : bsslSlices n l acc = Nat20.bsslSlices n (l.map Slice.wide) acc := by
  induction n generalizing l acc with
  | zero => cases l <;> rfl
  | succ n ih =>
    cases l with
    | nil => rfl
    | cons s l =>
      obtain ⟨k, p⟩ := s
      rw [List.map_cons, bsslSlices, Nat20.bsslSlices]
      refine ite_eq (zero_iff hw _) (fun _ => ih _ _) fun _ => ?_
      cases p with
      | none => rfl
      | some p => simp only [Slice.wide, readSlice_eq hw, ih]

include hw in
theorem gather_eq (g : GatherList w) (acc : Bytes) : bsslGather g acc = Nat20.bsslGather g.wide acc := by
  obtain ⟨n, l⟩ := g
  unfold bsslGather Nat20.bsslGather GatherList.wide
  refine ite_eq (zero_iff hw _) (fun _ => rfl) fun _ => ?_
  cases l with
  | none => rfl
  | some l => simp only [Option.map_some, slices_eq hw, toUInt64_toNat hw]

include hw in
theorem lists_eq (n : Nat) (l : List (GatherList w)) (acc : Bytes) : bsslLists n l acc = Nat20.bsslLists n (l.map GatherList.wide) acc := by
  induction n generalizing l acc with
  | zero => cases l <;> rfl
  | succ n ih =>
    cases l with
    | nil => rfl
    | cons g l =>
      rw [List.map_cons, bsslLists, Nat20.bsslLists]
      simp only [ih, gather_eq hw]

include hw' in
theorem alg_size (a : Alg) : toUInt64 (BitVec.ofNat w a.size) = UInt64.ofNat a.size := wide_of hw' _ (by cases a <;> decide)

include hw in
theorem nullList_iff (g : GatherList w) : g.count ≠ 0 ∧ g.list = none ↔ g.wide.count ≠ 0 ∧ g.wide.list = none := by
  show _ ↔ ¬ (toUInt64 g.count = 0) ∧ g.list.map (·.map Slice.wide) = none
  rw [← zero_iff hw]
  simp

include hw in
theorem slices_getD (g : GatherList w) : bsslSlices g.count.toNat (g.list.getD []) [] = Nat20.bsslSlices g.wide.count.toNat (g.wide.list.getD []) [] := by
  obtain ⟨n, l⟩ := g
  simp only [GatherList.wide, slices_eq hw, toUInt64_toNat hw]
  cases l <;> rfl

include hw hw' in
theorem digestRun_eq (a : Alg) (msg : List (GatherList w)) (count : BitVec w) (d : Bytes) (sz : BitVec w) :
    (bsslDigestRun a msg count d sz).map Reply.wide = Nat20.bsslDigestRun a (msg.map GatherList.wide) (toUInt64 count) d (toUInt64 sz) := by
  unfold bsslDigestRun Nat20.bsslDigestRun
  refine map_bind id _ ?_ fun r _ => map_ite _ Iff.rfl (fun _ => ?_) fun _ => rfl
  · rw [map_same, lists_eq hw, toUInt64_toNat hw]
  · refine map_bind id _ (map_same _) fun o _ => ?_
    rw [← alg_size (w := w) hw']
    rfl

include hw hw' in
theorem bsslDigest_eq (lib : Lib) (ctx : Option Unit) (alg : UInt32) (msg : Option (List (GatherList w))) (count : BitVec w) (out : Option Bytes) (size : Option (BitVec w)) :
    Reply.wide <$> bsslDigest lib ctx alg msg count out size =
      Nat20.bsslDigest lib ctx alg (msg.map (·.map GatherList.wide)) (toUInt64 count) out (size.map toUInt64) := by
  unfold bsslDigest Nat20.bsslDigest
  rw [← bsslSize_eq (w := w) hw']
  cases ctx with
  | none => exact map_pure _ _
  | some _ =>
    cases bsslMd alg with
    | none => exact map_pure _ _
    | some a =>
      cases size with
      | none => exact map_pure _ _
      | some sz =>
        cases out with
        | none => exact map_pure _ _
        | some d =>
          refine ite_ _ (lt_iff hw _ _) (fun _ => map_pure _ _) fun _ => ?_
          unfold bsslDigestMessage Nat20.bsslDigestMessage
          match msg with
          | none => exact map_pure _ _
          | some [] => exact lift_ _ _
          | some (g :: gs) =>
            refine ite_ _ (nullList_iff hw g) (fun _ => map_pure _ _) fun _ => then_ _ fun new => ite_ _ Iff.rfl (fun _ => lift_ _ _) fun _ =>
              then_ _ fun init => ite_ _ Iff.rfl (fun _ => map_pure _ _) fun _ => ?_
            rw [lift_, digestRun_eq hw hw']
            rfl

include hw hw' in
theorem bsslHmac_eq (lib : Lib) (ctx : Option Unit) (alg : UInt32) (key : Slice w) (msg : Option (GatherList w)) (out : Option Bytes) (size : Option (BitVec w)) :
    Reply.wide <$> bsslHmac lib ctx alg key msg out size = Nat20.bsslHmac lib ctx alg key.wide (msg.map GatherList.wide) out (size.map toUInt64) := by
  unfold bsslHmac Nat20.bsslHmac
  rw [← bsslSize_eq (w := w) hw']
  cases ctx with
  | none => exact map_pure _ _
  | some _ =>
    cases size with
    | none => exact map_pure _ _
    | some sz =>
      refine then_ _ fun new => ite_ _ Iff.rfl (fun _ => map_pure _ _) fun _ => ?_
      cases bsslMd alg with
      | none => exact map_pure _ _
      | some a =>
        refine ite_ _ (null_iff hw _) (fun _ => map_pure _ _) fun _ => ?_
        cases out with
        | none => exact map_pure _ _
        | some d =>
          refine ite_ _ (lt_iff hw _ _) (fun _ => map_pure _ _) fun _ => ?_
          unfold bsslHmacMessage Nat20.bsslHmacMessage
          cases msg with
          | none => exact map_pure _ _
          | some g =>
            refine ite_ _ (nullList_iff hw g) (fun _ => map_pure _ _) fun _ => ?_
            rw [readArg_eq hw, slices_getD hw]
            refine then_ _ fun k => then_ _ fun init => ite_ _ Iff.rfl (fun _ => map_pure _ _) fun _ => then_ _ fun r => ite_ _ Iff.rfl (fun _ => ?_) fun _ => map_pure _ _
            unfold bsslHmacFinal Nat20.bsslHmacFinal
            rw [← alg_size (w := w) hw']
            exact then_ _ fun final => ite_ _ Iff.rfl (fun _ => then_ _ fun junk => then_ _ fun o => map_pure _ _) fun _ => then_ _ fun o => map_pure _ _

include hw in
theorem expandOut_eq (lib : Lib) (a : Alg) (prk info : Bytes) (n : BitVec w) (out : Option Bytes) : bsslExpandOut lib a prk info n out = Nat20.bsslExpandOut lib a prk info (toUInt64 n) out := by
  unfold bsslExpandOut Nat20.bsslExpandOut
  rw [toUInt64_toNat hw]
  refine bind_congr fun r => ?_
  cases r <;> rfl

include hw in
theorem bsslHkdf_eq (lib : Lib) (ctx : Option Unit) (alg : UInt32) (ikm salt info : Slice w) (n : BitVec w) (out : Option Bytes) :
    bsslHkdf lib ctx alg ikm salt info n out = Nat20.bsslHkdf lib ctx alg ikm.wide salt.wide info.wide (toUInt64 n) out := by
  unfold bsslHkdf Nat20.bsslHkdf
  cases ctx with
  | none => rfl
  | some _ =>
    cases bsslMd alg with
    | none => rfl
    | some a =>
      refine ite_eq (null_iff hw _) (fun _ => rfl) fun _ => ite_eq (null_iff hw _) (fun _ => rfl) fun _ => ite_eq (null_iff hw _) (fun _ => rfl) fun _ =>
        ite_eq (by rw [Ne, Ne, zero_iff hw]) (fun _ => rfl) fun _ => ?_
      simp only [readArg_eq hw, expandOut_eq hw]

include hw hw' in
theorem bsslExtract_eq (lib : Lib) (ctx : Option Unit) (alg : UInt32) (ikm salt : Slice w) (prk : Option Bytes) (size : Option (BitVec w)) :
    Reply.wide <$> bsslExtract lib ctx alg ikm salt prk size = Nat20.bsslExtract lib ctx alg ikm.wide salt.wide prk (size.map toUInt64) := by
  unfold bsslExtract Nat20.bsslExtract
  rw [← bsslSize_eq (w := w) hw']
  cases ctx with
  | none => exact map_pure _ _
  | some _ =>
    cases bsslMd alg with
    | none => exact map_pure _ _
    | some a =>
      refine ite_ _ (null_iff hw _) (fun _ => map_pure _ _) fun _ => ite_ _ (null_iff hw _) (fun _ => map_pure _ _) fun _ => ?_
      cases size with
      | none => exact map_pure _ _
      | some sz =>
        cases prk with
        | none => exact map_pure _ _
        | some d =>
          refine ite_ _ (lt_iff hw _ _) (fun _ => map_pure _ _) fun _ => ?_
          rw [readArg_eq hw, readArg_eq hw]
          refine then_ _ fun ikm => then_ _ fun salt => ?_
          unfold bsslExtractOut Nat20.bsslExtractOut
          rw [← alg_size (w := w) hw']
          exact then_ _ fun ok => ite_ _ Iff.rfl (fun _ => then_ _ fun junk => then_ _ fun o => map_pure _ _) fun _ => then_ _ fun o => map_pure _ _

include hw in
theorem bsslExpand_eq (lib : Lib) (ctx : Option Unit) (alg : UInt32) (prk info : Slice w) (n : BitVec w) (out : Option Bytes) :
    bsslExpand lib ctx alg prk info n out = Nat20.bsslExpand lib ctx alg prk.wide info.wide (toUInt64 n) out := by
  unfold bsslExpand Nat20.bsslExpand
  cases ctx with
  | none => rfl
  | some _ =>
    cases bsslMd alg with
    | none => rfl
    | some a =>
      refine ite_eq (null_iff hw _) (fun _ => rfl) fun _ => ite_eq (null_iff hw _) (fun _ => rfl) fun _ => ite_eq (zero_iff hw _) (fun _ => rfl) fun _ =>
        ite_eq Iff.rfl (fun _ => rfl) fun _ => ?_
      simp only [readArg_eq hw, expandOut_eq hw]

/-! ## Keys -/

include hw in
theorem vector_eq (g : Option (GatherList w)) : gatherToVector g = Nat20.gatherToVector (g.map GatherList.wide) := by
  unfold gatherToVector Nat20.gatherToVector
  cases g with
  | none => rfl
  | some g =>
    refine ite_eq (nullList_iff hw g) (fun _ => rfl) fun _ => ?_
    rw [slices_getD hw]

include hw in
theorem bsslKdf_eq (lib : Lib) (ctx : Option Unit) (keyIn : Option Nat) (type : UInt32) (context : Option (GatherList w)) (keyOut : Option (Option Nat)) :
    bsslKdf lib ctx keyIn type context keyOut = Nat20.bsslKdf lib ctx keyIn type (context.map GatherList.wide) keyOut := by
  unfold bsslKdf Nat20.bsslKdf bsslKdfRun Nat20.bsslKdfRun bsslKdfKey Nat20.bsslKdfKey bsslDerive Nat20.bsslDerive
  rw [vector_eq hw]
  cases ctx <;> cases keyIn <;> rfl

include hw in
theorem bsslMakeSecret_eq (ctx : Option Unit) (secret : Option (Slice w)) (keyOut : Option (Option Nat)) :
    bsslMakeSecret ctx secret keyOut = Nat20.bsslMakeSecret ctx (secret.map Slice.wide) keyOut := by
  unfold bsslMakeSecret Nat20.bsslMakeSecret
  cases ctx with
  | none => rfl
  | some _ =>
    cases secret with
    | none => rfl
    | some s =>
      obtain ⟨n, p⟩ := s
      cases p with
      | none => rfl
      | some p =>
        refine ite_eq (zero_iff hw _) (fun _ => rfl) fun _ => ?_
        cases keyOut with
        | none => rfl
        | some _ =>
          rw [readSlice_eq hw]
          rfl

/-! ## Signatures -/

include hw in
theorem signUpdate_eq (lib : Lib) (n : Nat) (l : List (Slice w)) (acc : Bytes) : signUpdate lib n l acc = Nat20.signUpdate lib n (l.map Slice.wide) acc := by
  induction n generalizing l acc with
  | zero => cases l <;> rfl
  | succ n ih =>
    cases l with
    | nil => rfl
    | cons s l =>
      obtain ⟨k, p⟩ := s
      rw [List.map_cons, signUpdate, Nat20.signUpdate]
      refine ite_eq (zero_iff hw _) (fun _ => ih _ _) fun _ => ?_
      cases p with
      | none => rfl
      | some p => simp only [Slice.wide, readSlice_eq hw, ih]

include hw in
theorem ecMessage_eq (lib : Lib) (msg : Option (GatherList w)) : ecMessage lib msg = Nat20.ecMessage lib (msg.map GatherList.wide) := by
  unfold ecMessage Nat20.ecMessage
  cases msg with
  | none => rfl
  | some g =>
    refine ite_eq (nullList_iff hw g) (fun _ => rfl) fun _ => ?_
    obtain ⟨n, l⟩ := g
    simp only [GatherList.wide, signUpdate_eq hw, toUInt64_toNat hw]
    cases l <;> rfl

include hw hw' in
theorem ecSign_eq (lib : Lib) (a : Alg) (key : PKey) (msg : Option (GatherList w)) (n : BitVec w) (d : Bytes) (sz : BitVec w) :
    Reply.wide <$> ecSign lib a key msg n d sz = Nat20.ecSign lib a key (msg.map GatherList.wide) (toUInt64 n) d (toUInt64 sz) := by
  unfold ecSign Nat20.ecSign
  rw [ecMessage_eq hw]
  refine then_ _ fun r => ?_
  cases r with
  | error e => exact map_pure _ _
  | ok text =>
    refine then_ _ fun rest => ?_
    unfold ecFinal Nat20.ecFinal
    rw [toUInt64_toNat hw]
    have h104 : toUInt64 (104 : BitVec w) = 104 := wide_of hw' 104 (by decide)
    rw [← h104]
    refine then_ _ fun m => then_ _ fun ok => ite_ _ Iff.rfl (fun _ => map_pure _ _) fun _ => ?_
    cases key with
    | ed25519 seed => exact lift_ _ _
    | ec curve x => exact ite_ _ Iff.rfl (fun _ => map_pure _ _) fun _ => then_ _ fun o => map_pure _ _

include hw hw' in
theorem edSign_eq (lib : Lib) (hlib : ∀ seed text, (lib.edSign seed text).length < 65536) (key : PKey) (msg : Option (GatherList w)) (d : Bytes) (sz : BitVec w) :
    Reply.wide <$> edSign lib key msg d sz = Nat20.edSign lib key (msg.map GatherList.wide) d (toUInt64 sz) := by
  unfold edSign Nat20.edSign
  rw [vector_eq hw]
  refine then_ _ fun init => ite_ _ Iff.rfl (fun _ => map_pure _ _) fun _ => then_ _ fun r => ?_
  cases r with
  | error e => exact map_pure _ _
  | ok text =>
    unfold edFinal Nat20.edFinal
    refine then_ _ fun ok => ?_
    cases ok with
    | false => exact then_ _ fun junk => then_ _ fun o => map_pure _ _
    | true =>
      cases key with
      | ec curve x => exact lift_ _ _
      | ed25519 seed =>
        dsimp only
        rw [← wide_of (w := w) hw' _ (hlib seed text)]
        exact then_ _ fun o => map_pure _ _

include hw' in
theorem signatureSize_eq (type : UInt32) : (signatureSize type : Option (BitVec w)).map toUInt64 = Nat20.signatureSize type := by
  have h1 : toUInt64 (64 : BitVec w) = 64 := wide_of hw' 64 (by decide)
  have h2 : toUInt64 (96 : BitVec w) = 96 := wide_of hw' 96 (by decide)
  unfold signatureSize Nat20.signatureSize
  by_cases h : type = 3
  · rw [if_pos h, if_pos h, Option.map_some, h1]
  rw [if_neg h, if_neg h]
  by_cases h : type = 1
  · rw [if_pos h, if_pos h, Option.map_some, h1]
  rw [if_neg h, if_neg h]
  by_cases h : type = 2
  · rw [if_pos h, if_pos h, Option.map_some, h2]
  rw [if_neg h, if_neg h]
  rfl

include hw hw' in
theorem bsslSign_eq (lib : Lib) (hlib : ∀ seed text, (lib.edSign seed text).length < 65536) (ctx : Option Unit) (key : Option Nat) (msg : Option (GatherList w)) (out : Option Bytes)
    (size : Option (BitVec w)) : Reply.wide <$> bsslSign lib ctx key msg out size = Nat20.bsslSign lib ctx key (msg.map GatherList.wide) out (size.map toUInt64) := by
  unfold bsslSign Nat20.bsslSign
  cases ctx with
  | none => exact map_pure _ _
  | some _ =>
    cases key with
    | none => exact map_pure _ _
    | some p =>
      cases size with
      | none => exact map_pure _ _
      | some sz =>
        refine then_ _ fun k => ite_ _ Iff.rfl (fun _ => map_pure _ _) fun _ => then_ _ fun key => ?_
        unfold bsslSignRun Nat20.bsslSignRun
        refine then_ _ fun new => ite_ _ Iff.rfl (fun _ => map_pure _ _) fun _ => ?_
        rw [← signatureSize_eq (w := w) hw']
        cases signatureSize (w := w) k.type with
        | none => exact map_pure _ _
        | some n =>
          cases out with
          | none => exact map_pure _ _
          | some d =>
            exact ite_ _ (lt_iff hw _ _) (fun _ => map_pure _ _) fun _ => ite_ _ Iff.rfl (fun _ => edSign_eq hw hw' lib hlib _ _ _ _) fun _ =>
              ite_ _ Iff.rfl (fun _ => ecSign_eq hw hw' _ _ _ _ _ _ _) fun _ => ecSign_eq hw hw' _ _ _ _ _ _ _

/-! ## Public keys -/

include hw' in
theorem publicKeySize_eq (type : UInt32) : (publicKeySize type : Option (BitVec w)).map toUInt64 = Nat20.publicKeySize type := by
  have h0 : toUInt64 (32 : BitVec w) = 32 := wide_of hw' 32 (by decide)
  have h1 : toUInt64 (64 : BitVec w) = 64 := wide_of hw' 64 (by decide)
  have h2 : toUInt64 (96 : BitVec w) = 96 := wide_of hw' 96 (by decide)
  unfold publicKeySize Nat20.publicKeySize
  by_cases h : type = 3
  · rw [if_pos h, if_pos h, Option.map_some, h0]
  rw [if_neg h, if_neg h]
  by_cases h : type = 1
  · rw [if_pos h, if_pos h, Option.map_some, h1]
  rw [if_neg h, if_neg h]
  by_cases h : type = 2
  · rw [if_pos h, if_pos h, Option.map_some, h2]
  rw [if_neg h, if_neg h]
  rfl

include hw hw' in
theorem bsslPublicKey_eq (lib : Lib) (hlib : ∀ seed, (lib.edPublic seed).length < 65536) (ctx : Option Unit) (key : Option Nat) (out : Option Bytes) (size : Option (BitVec w)) :
    Reply.wide <$> bsslPublicKey lib ctx key out size = Nat20.bsslPublicKey lib ctx key out (size.map toUInt64) := by
  unfold bsslPublicKey Nat20.bsslPublicKey
  cases ctx with
  | none => exact map_pure _ _
  | some _ =>
    cases key with
    | none => exact map_pure _ _
    | some p =>
      cases size with
      | none => exact map_pure _ _
      | some sz =>
        refine then_ _ fun k => ?_
        rw [← publicKeySize_eq (w := w) hw']
        cases publicKeySize (w := w) k.type with
        | none => exact map_pure _ _
        | some n =>
          cases out with
          | none => exact map_pure _ _
          | some d =>
            refine ite_ _ (lt_iff hw _ _) (fun _ => map_pure _ _) fun _ => then_ _ fun key => ?_
            cases key with
            | ec curve x =>
              unfold ecPublicKey Nat20.ecPublicKey
              rw [toUInt64_toNat hw]
              refine ite_ _ Iff.rfl (fun _ => map_pure _ _) fun _ => then_ _ fun ok => ite_ _ Iff.rfl (fun _ => map_pure _ _) fun _ =>
                ite_ _ Iff.rfl (fun _ => map_pure _ _) fun _ => ?_
              rw [sim_memcpy (w := w) (some d) _ 0 n 0 (toUInt64 n) (by simp) (toUInt64_toNat hw n).symm]
              exact then_ _ fun o => map_pure _ _
            | ed25519 seed =>
              unfold edPublicKey Nat20.edPublicKey
              dsimp only
              rw [← wide_of (w := w) hw' _ (hlib seed), ← show toUInt64 (32 : BitVec w) = 32 from wide_of hw' 32 (by decide)]
              exact ite_ _ Iff.rfl (fun _ => map_pure _ _) fun _ => then_ _ fun ok => ite_ _ Iff.rfl (fun _ => map_pure _ _) fun _ => then_ _ fun o =>
                ite_ _ Iff.rfl (fun _ => map_pure _ _) fun _ => map_pure _ _

end Nat20.Sized

import Verif.Model.Concurrent
/-!
# The programs of `Model/Concurrent.lean` do what the functions of `Model/Boringssl.lean` do
-/

namespace Nat20

open Fips

/-- Running a program with nobody else around. -/
def L.toB {α : Type} (lib : Lib) : L α → B α
  | .done a => fun w => .ok (a, w)
  | .fault e => fun _ => .error e
  | .call k => fun w => (k (lib.answer w.calls)).toB lib { w with calls := w.calls + 1 }

/-- The same for programs with an error code. -/
def toE {α : Type} (lib : Lib) (m : LE α) : BE α := L.toB lib m.run

variable {α β : Type} (lib : Lib)

@[simp] theorem toB_pure (a : α) : L.toB lib (Pure.pure a) = Pure.pure a := rfl

theorem toB_bind (m : L α) (f : α → L β) : L.toB lib (m >>= f) = L.toB lib m >>= fun a => L.toB lib (f a) := by
  induction m with
  | done a => rfl
  | fault e => rfl
  | call k ih =>
    funext w
    have h := congrFun (ih (lib.answer w.calls)) { w with calls := w.calls + 1 }
    exact h

theorem toB_libCall : L.toB lib libCallL = libCall lib := rfl

theorem toB_lift (x : Except UB α) : L.toB lib (liftL x) = liftB x := by
  cases x <;> rfl

theorem toB_ite (c : Prop) [Decidable c] (a b : L α) : L.toB lib (if c then a else b) = if c then L.toB lib a else L.toB lib b := by
  split <;> rfl

theorem libExpand_toB (a : Alg) (prk info : Bytes) (n : Nat) : L.toB lib (libExpandL a prk info n) = libExpand lib a prk info n := by
  funext w
  have h : L.toB lib (libExpandL a prk info n) w = L.toB lib (match (lib.answer w.calls).ok, hkdfExpand a prk info n with
      | true, some okm => (return .ok okm : L (Except Bytes Bytes))
      | true, none => return .error []
      | false, _ => return .error ((lib.answer w.calls).output n)) { w with calls := w.calls + 1 } := rfl
  have h2 : libExpand lib a prk info n w = (match !lib.fails w.calls, hkdfExpand a prk info n with
      | true, some okm => (return .ok okm : B (Except Bytes Bytes))
      | true, none => return .error []
      | false, _ => do return .error (← libJunk lib n)) { w with calls := w.calls + 1 } := rfl
  rw [h, h2]
  show L.toB lib (match !lib.fails w.calls, hkdfExpand a prk info n with
      | true, some okm => (return .ok okm : L (Except Bytes Bytes))
      | true, none => return .error []
      | false, _ => return .error ((lib.answer w.calls).output n)) { w with calls := w.calls + 1 } = _
  cases !lib.fails w.calls <;> cases hkdfExpand a prk info n <;> rfl

theorem digestMessage_toB (a : Alg) (msg : Option (List GatherList)) (count : UInt64) (d : Bytes) (sz : UInt64) :
    L.toB lib (bsslDigestMessageL a msg count d sz) = bsslDigestMessage lib a msg count d sz := by
  rcases msg with _ | _ | ⟨g, gs⟩
  · rfl
  · rfl
  · unfold bsslDigestMessageL bsslDigestMessage
    simp only [toB_ite, toB_bind, toB_libCall, toB_lift, toB_pure]

theorem digest_toB (ctx : Option Unit) (alg : UInt32) (msg : Option (List GatherList)) (count : UInt64) (out : Option Bytes) (size : Option UInt64) :
    L.toB lib (bsslDigestL ctx alg msg count out size) = bsslDigest lib ctx alg msg count out size := by
  unfold bsslDigestL bsslDigest
  cases ctx
  · rfl
  · generalize bsslMd alg = m
    cases m <;> cases size <;> cases out <;> first | rfl | skip
    simp only [toB_ite, toB_pure, digestMessage_toB]

theorem hmacFinal_toB (a : Alg) (key text : Bytes) (d : Bytes) (sz : UInt64) :
    L.toB lib (bsslHmacFinalL a key text d sz) = bsslHmacFinal lib a key text d sz := by
  funext w
  show L.toB lib (if (!lib.fails w.calls) = false then _ else _) _ = (if (!lib.fails w.calls) = false then _ else _ : B Reply) _
  cases !lib.fails w.calls
  · rw [if_pos rfl, if_pos rfl, toB_bind, toB_lift]
    rfl
  · rw [if_neg (by simp), if_neg (by simp), toB_bind, toB_lift]
    rfl

theorem hmacMessage_toB (a : Alg) (key : Slice) (msg : Option GatherList) (d : Bytes) (sz : UInt64) :
    L.toB lib (bsslHmacMessageL a key msg d sz) = bsslHmacMessage lib a key msg d sz := by
  cases msg
  · rfl
  · unfold bsslHmacMessageL bsslHmacMessage
    simp only [toB_ite, toB_bind, toB_libCall, toB_lift, toB_pure, hmacFinal_toB]

theorem hmac_toB (ctx : Option Unit) (alg : UInt32) (key : Slice) (msg : Option GatherList) (out : Option Bytes) (size : Option UInt64) :
    L.toB lib (bsslHmacL ctx alg key msg out size) = bsslHmac lib ctx alg key msg out size := by
  unfold bsslHmacL bsslHmac
  cases ctx <;> cases size <;> first | rfl | skip
  simp only [toB_bind, toB_libCall, toB_ite]
  refine bind_congr fun b => ite_congr rfl (fun _ => rfl) fun _ => ?_
  generalize bsslMd alg = m
  cases m <;> cases out <;> first | rfl | skip
  · simp only [toB_ite, toB_pure]
  · simp only [toB_ite, toB_pure, hmacMessage_toB]

theorem expandOut_toB (a : Alg) (prk info : Bytes) (keyOctets : UInt64) (out : Option Bytes) :
    L.toB lib (bsslExpandOutL a prk info keyOctets out) = bsslExpandOut lib a prk info keyOctets out := by
  unfold bsslExpandOutL bsslExpandOut
  rw [toB_bind, libExpand_toB]
  refine bind_congr fun r => ?_
  cases r <;> · simp only [toB_bind, toB_lift, toB_pure]

theorem hkdf_toB (ctx : Option Unit) (alg : UInt32) (ikm salt info : Slice) (keyOctets : UInt64) (out : Option Bytes) :
    L.toB lib (bsslHkdfL ctx alg ikm salt info keyOctets out) = bsslHkdf lib ctx alg ikm salt info keyOctets out := by
  unfold bsslHkdfL bsslHkdf
  generalize bsslMd alg = m
  cases ctx <;> cases m <;> first | rfl | skip
  simp only [toB_ite, toB_bind, toB_lift, expandOut_toB, toB_pure]

theorem extractOut_toB (a : Alg) (salt ikm : Bytes) (d : Bytes) (sz : UInt64) :
    L.toB lib (bsslExtractOutL a salt ikm d sz) = bsslExtractOut lib a salt ikm d sz := by
  funext w
  show L.toB lib (if (!lib.fails w.calls) = false then _ else _) _ = (if (!lib.fails w.calls) = false then _ else _ : B Reply) _
  cases !lib.fails w.calls
  · rw [if_pos rfl, if_pos rfl, toB_bind, toB_lift]
    rfl
  · rw [if_neg (by simp), if_neg (by simp), toB_bind, toB_lift]
    rfl

theorem extract_toB (ctx : Option Unit) (alg : UInt32) (ikm salt : Slice) (prk : Option Bytes) (size : Option UInt64) :
    L.toB lib (bsslExtractL ctx alg ikm salt prk size) = bsslExtract lib ctx alg ikm salt prk size := by
  unfold bsslExtractL bsslExtract
  generalize bsslMd alg = m
  cases ctx <;> cases m <;> first | rfl | skip
  cases size <;> cases prk <;> simp only [toB_ite, toB_bind, toB_lift, extractOut_toB, toB_pure]

theorem expand_toB (ctx : Option Unit) (alg : UInt32) (prk info : Slice) (keyOctets : UInt64) (out : Option Bytes) :
    L.toB lib (bsslExpandL ctx alg prk info keyOctets out) = bsslExpand lib ctx alg prk info keyOctets out := by
  unfold bsslExpandL bsslExpand
  generalize bsslMd alg = m
  cases ctx <;> cases m <;> first | rfl | skip
  simp only [toB_ite, toB_bind, toB_lift, expandOut_toB, toB_pure]

/-! ## RFC 6979 -/

@[simp] theorem toE_pure (a : α) : toE lib (Pure.pure a) = Pure.pure a := rfl

@[simp] theorem toE_throw (e : N20Error) : toE lib (throw e : LE α) = throw e := rfl

theorem toE_bind (m : LE α) (f : α → LE β) : toE lib (m >>= f) = toE lib m >>= fun a => toE lib (f a) := by
  show L.toB lib ((m.run : L _) >>= ExceptT.bindCont f) = _
  rw [toB_bind]
  refine bind_congr fun r => ?_
  cases r <;> rfl

theorem toE_ite (c : Prop) [Decidable c] (a b : LE α) : toE lib (if c then a else b) = if c then toE lib a else toE lib b := by
  split <;> rfl

theorem toE_lift (m : L α) : toE lib (liftM m : LE α) = (liftM (L.toB lib m) : BE α) := by
  show L.toB lib (m >>= fun a => Pure.pure (Except.ok a)) = Except.ok <$> L.toB lib m
  rw [toB_bind]
  exact bind_pure_comp Except.ok _

theorem toE_need (e : N20Error) : toE lib (needL e) = need lib e := by
  funext w
  show Except.ok (if !lib.fails w.calls then _ else _, _) = Except.ok (if lib.fails w.calls then _ else _, _)
  cases lib.fails w.calls <;> rfl

theorem bnPadded_toE (n k : Nat) : toE lib (bnPaddedL n k) = bnPadded lib n k := by
  unfold bnPaddedL bnPadded
  simp only [toE_bind, toE_need, toE_ite, toE_pure, toE_throw]

theorem rfcShift_toE (size qlen h1 : Nat) : toE lib (rfcShiftL size qlen h1) = rfcShift lib size qlen h1 := by
  unfold rfcShiftL rfcShift
  simp only [toE_bind, toE_need, toE_ite, toE_pure]

theorem rfcH1_toE (a : Alg) (m : Bytes) (q : Nat) : toE lib (rfcH1L a m q) = rfcH1 lib a m q := by
  unfold rfcH1L rfcH1
  simp only [toE_bind, toE_need, rfcShift_toE, toE_ite, bnPadded_toE]

theorem rfcUpdateK_toE (a : Alg) (K V : Bytes) (o : UInt8) (more : Bytes) : toE lib (rfcUpdateKL a K V o more) = rfcUpdateK lib a K V o more := by
  unfold rfcUpdateKL rfcUpdateK
  simp only [toE_bind, toE_need, toE_pure]

theorem rfcUpdateV_toE (a : Alg) (K V : Bytes) : toE lib (rfcUpdateVL a K V) = rfcUpdateV lib a K V := by
  unfold rfcUpdateVL rfcUpdateV
  simp only [toE_bind, toE_need, toE_pure]

theorem rfcSeed_toE (a : Alg) (x h1 K V : Bytes) : toE lib (rfcSeedL a x h1 K V) = rfcSeed lib a x h1 K V := by
  unfold rfcSeedL rfcSeed
  simp only [toE_bind, rfcUpdateK_toE, rfcUpdateV_toE, toE_pure]

theorem rfcT_toE (a : Alg) (K : Bytes) (n : Nat) : ∀ V T, toE lib (rfcTL a K n V T) = rfcT lib a K n V T := by
  induction n with
  | zero => intro V T; rfl
  | succ n ih =>
    intro V T
    rw [rfcTL, rfcT]
    simp only [toE_bind, rfcUpdateV_toE, ih]

theorem rfcLoop_toE (a : Alg) (q : Nat) (n : Nat) : ∀ K V, toE lib (rfcLoopL lib.fns a q n K V) = rfcLoop lib a q n K V := by
  induction n with
  | zero => intro K V; rfl
  | succ n ih =>
    intro K V
    rw [rfcLoopL, rfcLoop]
    simp only [toE_bind, rfcT_toE, toE_need, toE_ite, rfcUpdateK_toE, rfcUpdateV_toE, ih, toE_pure]

theorem rfcOptH1_toE (a : Alg) (m : Option Bytes) (q : Nat) : toE lib (rfcOptH1L a m q) = rfcOptH1 lib a m q := by
  cases m
  · rfl
  · exact rfcH1_toE ..

theorem rfc6979_toE (x : Bytes) (m : Option Bytes) (alg : UInt32) (q : Nat) : toE lib (rfc6979L lib.fns x m alg q) = rfc6979 lib x m alg q := by
  unfold rfc6979L rfc6979
  generalize bsslMd alg = a
  cases a
  · rfl
  · simp only [toE_bind, rfcOptH1_toE, toE_need, rfcSeed_toE, rfcLoop_toE]
    rfl

/-! ## Keys -/

theorem gather_toE (g : Option GatherList) : toE lib (gatherToVectorL g) = gatherToVector g := by
  cases g
  · rfl
  · unfold gatherToVectorL gatherToVector
    simp only [toE_ite, toE_throw, toE_bind, toE_lift, toB_lift, toE_pure]

theorem ecKey_toE (type : UInt32) (derived : Bytes) : toE lib (bsslEcKeyL lib.fns type derived) = bsslEcKey lib type derived := by
  unfold bsslEcKeyL bsslEcKey
  simp only [toE_bind, toE_need, rfc6979_toE, toE_pure]

theorem makeKey_toE (type : UInt32) (derived : Bytes) : toE lib (bsslMakeKeyL lib.fns type derived) = bsslMakeKey lib type derived := by
  unfold bsslMakeKeyL bsslMakeKey
  simp only [toE_ite, toE_throw, toE_bind, toE_need, toE_pure, ecKey_toE]

theorem derive_toE (bits : Bytes) (context : Option GatherList) : toE lib (bsslDeriveL bits context) = bsslDerive lib bits context := by
  unfold bsslDeriveL bsslDerive
  rw [toE_bind, gather_toE]
  refine bind_congr fun c => ?_
  rw [toE_bind, toE_lift, libExpand_toB]
  refine bind_congr fun r => ?_
  cases r <;> rfl

theorem kdfKey_toE (bits : Bytes) (type : UInt32) (context : Option GatherList) :
    toE lib (bsslKdfKeyL lib.fns bits type context) = bsslKdfKey lib bits type context := by
  unfold bsslKdfKeyL bsslKdfKey
  simp only [toE_bind, derive_toE, makeKey_toE]

/-! ## Signatures and public keys -/

theorem needAnswer_run (e : N20Error) (w : World) :
    L.toB lib (needAnswerL e).run w = .ok (if lib.fails w.calls then .error e else .ok (lib.answer w.calls), { w with calls := w.calls + 1 }) := by
  show Except.ok (if !lib.fails w.calls then _ else _, _) = _
  cases lib.fails w.calls <;> rfl

theorem need_then (e : N20Error) (m : BE α) (w : World) : (need lib e >>= fun _ => m).run w
    = if lib.fails w.calls then .ok (.error e, { w with calls := w.calls + 1 }) else m.run { w with calls := w.calls + 1 } := by
  show (StateT.bind (need lib e) (ExceptT.bindCont fun _ => m) : B _) w = _
  unfold StateT.bind need
  cases lib.fails w.calls <;> rfl

/-- The outcome of a computation that also returns the answer of the latest call. -/
def SameText (lib : Lib) : Except UB (Except N20Error (Bytes × CallAnswer) × World) → Except UB (Except N20Error Bytes × World) → Prop
  | .error e, .error e' => e = e'
  | .ok (.error e, w), .ok (.error e', w') => e = e' ∧ w = w'
  | .ok (.ok (t, c), w), .ok (.ok t', w') => t = t' ∧ w = w' ∧ c = lib.answer (w.calls - 1)
  | _, _ => False

theorem signUpdate_same (n : Nat) : ∀ (l : List Slice) (acc : Bytes) (c : CallAnswer) (w : World), c = lib.answer (w.calls - 1) →
    SameText lib (L.toB lib (signUpdateL n l acc c).run w) ((signUpdate lib n l acc).run w) := by
  induction n with
  | zero => intro l acc c w h; exact ⟨rfl, rfl, h⟩
  | succ n ih =>
    intro l acc c w h
    cases l with
    | nil => exact rfl
    | cons s rest =>
      rw [signUpdateL, signUpdate]
      by_cases hs : s.size = 0
      · rw [if_pos hs, if_pos hs]
        exact ih rest acc c w h
      · rw [if_neg hs, if_neg hs]
        cases hb : s.buffer with
        | none => exact ⟨rfl, rfl⟩
        | some p =>
          cases hr : readSlice p s.size with
          | error e =>
            dsimp only
            rw [hr]
            exact rfl
          | ok bs =>
            have h1 : L.toB lib (do
                let bs ← (liftM (liftL (Except.ok bs : Except UB Bytes)) : LE Bytes)
                let c ← needAnswerL .implementationSpecific
                signUpdateL n rest (acc ++ bs) c : LE (Bytes × CallAnswer)).run w
                = (match (if lib.fails w.calls then .error .implementationSpecific else .ok (lib.answer w.calls) : Except N20Error CallAnswer) with
                  | .error e => .ok (.error e, { w with calls := w.calls + 1 })
                  | .ok c => L.toB lib (signUpdateL n rest (acc ++ bs) c).run { w with calls := w.calls + 1 }) := by
              show L.toB lib (L.bind (needAnswerL .implementationSpecific) _) w = _
              have := congrFun (toB_bind lib (needAnswerL .implementationSpecific).run (ExceptT.bindCont fun c => signUpdateL n rest (acc ++ bs) c)) w
              refine this.trans ?_
              show (StateT.bind _ _ : B _) w = _
              unfold StateT.bind
              rw [needAnswer_run]
              cases lib.fails w.calls <;> rfl
            have h2 : ((do
                let bs ← (liftM (liftB (Except.ok bs : Except UB Bytes)) : BE Bytes)
                need lib .implementationSpecific
                signUpdate lib n rest (acc ++ bs) : BE Bytes)).run w
                = (match (if lib.fails w.calls then .error .implementationSpecific else .ok () : Except N20Error Unit) with
                  | .error e => .ok (.error e, { w with calls := w.calls + 1 })
                  | .ok _ => (signUpdate lib n rest (acc ++ bs)).run { w with calls := w.calls + 1 }) := by
              exact (need_then lib .implementationSpecific _ w).trans (by cases lib.fails w.calls <;> rfl)
            dsimp only
            rw [hr, h1, h2]
            cases lib.fails w.calls
            · exact ih rest (acc ++ bs) _ _ rfl
            · exact ⟨rfl, rfl⟩

theorem ecMessage_same (msg : Option GatherList) (w : World) : SameText lib (L.toB lib (ecMessageL msg).run w) ((ecMessage lib msg).run w) := by
  cases msg with
  | none => exact ⟨rfl, rfl⟩
  | some g =>
    unfold ecMessageL ecMessage
    dsimp only
    by_cases hg : g.count ≠ 0 ∧ g.list = none
    · rw [if_pos hg, if_pos hg]
      exact ⟨rfl, rfl⟩
    · rw [if_neg hg, if_neg hg]
      have h1 : L.toB lib (do
          let c ← needAnswerL .implementationSpecific
          signUpdateL g.count.toNat (g.list.getD []) [] c : LE (Bytes × CallAnswer)).run w
          = (match (if lib.fails w.calls then .error .implementationSpecific else .ok (lib.answer w.calls) : Except N20Error CallAnswer) with
            | .error e => .ok (.error e, { w with calls := w.calls + 1 })
            | .ok c => L.toB lib (signUpdateL g.count.toNat (g.list.getD []) [] c).run { w with calls := w.calls + 1 }) := by
        have := congrFun (toB_bind lib (needAnswerL .implementationSpecific).run (ExceptT.bindCont fun c => signUpdateL g.count.toNat (g.list.getD []) [] c)) w
        refine this.trans ?_
        show (StateT.bind _ _ : B _) w = _
        unfold StateT.bind
        rw [needAnswer_run]
        cases lib.fails w.calls <;> rfl
      have h2 : ((do
          need lib .implementationSpecific
          signUpdate lib g.count.toNat (g.list.getD []) [] : BE Bytes)).run w
          = (match (if lib.fails w.calls then .error .implementationSpecific else .ok () : Except N20Error Unit) with
            | .error e => .ok (.error e, { w with calls := w.calls + 1 })
            | .ok _ => (signUpdate lib g.count.toNat (g.list.getD []) []).run { w with calls := w.calls + 1 }) := by
        exact (need_then lib .implementationSpecific _ w).trans (by cases lib.fails w.calls <;> rfl)
      rw [h1, h2]
      cases lib.fails w.calls
      · exact signUpdate_same lib _ _ _ _ _ rfl
      · exact ⟨rfl, rfl⟩

theorem ecFinal_toB (a : Alg) (key : PKey) (text : Bytes) (n : UInt64) (rest d : Bytes) :
    L.toB lib (ecFinalL a key text n rest d) = ecFinal lib a key text n rest d := by
  funext w
  show L.toB lib (if (!lib.fails w.calls) = false then _ else _) _ = (if (!lib.fails w.calls) = false then _ else _ : B Reply) _
  cases !lib.fails w.calls
  · rfl
  · rw [if_neg (by simp), if_neg (by simp)]
    cases key with
    | ed25519 s => rfl
    | ec c x =>
      dsimp only
      rw [toB_ite, toB_bind, toB_lift]
      rfl

theorem ecSign_toB (a : Alg) (key : PKey) (msg : Option GatherList) (n : UInt64) (d : Bytes) (sz : UInt64) :
    L.toB lib (ecSignL a key msg n d sz) = ecSign lib a key msg n d sz := by
  funext w
  unfold ecSignL ecSign
  rw [toB_bind]
  have h := ecMessage_same lib msg w
  show (StateT.bind _ _ : B _) w = (StateT.bind _ _ : B _) w
  unfold StateT.bind
  revert h
  generalize L.toB lib (ecMessageL msg).run w = x
  generalize (ecMessage lib msg).run w = y
  intro h
  match x, y, h with
  | .error e, .error e', h => cases h; rfl
  | .ok (.error e, w1), .ok (.error e', w2), ⟨h1, h2⟩ => cases h1; cases h2; rfl
  | .ok (.ok (t, c), w1), .ok (.ok t', w2), ⟨h1, h2, h3⟩ =>
    cases h1
    cases h2
    show L.toB lib (ecFinalL a key t n (c.output 104) d) w1 = _
    rw [ecFinal_toB, h3]
    rfl

theorem edFinal_toB (key : PKey) (text d : Bytes) (sz : UInt64) : L.toB lib (edFinalL lib.fns key text d sz) = edFinal lib key text d sz := by
  funext w
  have h : ∀ b : Bool, L.toB lib (match b, key with
      | false, _ => do
        let o ← liftL (writeOut (some d) ((lib.answer w.calls).output 64))
        return ⟨.implementationSpecific, o, some sz⟩
      | true, .ec _ _ => liftL (.error .badCast)
      | true, .ed25519 seed => do
        let o ← liftL (writeOut (some d) (lib.fns.edSign seed text))
        return ⟨.ok, o, some (UInt64.ofNat (lib.fns.edSign seed text).length)⟩) { w with calls := w.calls + 1 } = (match b, key with
      | false, _ => do
        let junk ← libJunk lib 64
        let o ← liftB (writeOut (some d) junk)
        return ⟨.implementationSpecific, o, some sz⟩
      | true, .ec _ _ => liftB (.error .badCast)
      | true, .ed25519 seed => do
        let o ← liftB (writeOut (some d) (lib.edSign seed text))
        return ⟨.ok, o, some (UInt64.ofNat (lib.edSign seed text).length)⟩ : B Reply) { w with calls := w.calls + 1 } := by
    intro b
    cases b <;> cases key <;> first | rfl | (dsimp only; rw [toB_bind, toB_lift]; rfl)
  exact h (!lib.fails w.calls)

theorem toB_run (m : LE α) : L.toB lib m.run = (toE lib m).run := rfl

theorem edSign_toB (key : PKey) (msg : Option GatherList) (d : Bytes) (sz : UInt64) : L.toB lib (edSignL lib.fns key msg d sz) = edSign lib key msg d sz := by
  unfold edSignL edSign
  simp only [toB_bind, toB_libCall, toB_ite, toB_run, gather_toE]
  refine bind_congr fun b => ite_congr rfl (fun _ => rfl) fun _ => bind_congr fun r => ?_
  cases r
  · rfl
  · exact edFinal_toB ..

theorem signRun_toB (type : UInt32) (key : PKey) (msg : Option GatherList) (out : Option Bytes) (sz : UInt64) :
    L.toB lib (bsslSignRunL lib.fns type key msg out sz) = bsslSignRun lib type key msg out sz := by
  unfold bsslSignRunL bsslSignRun
  simp only [toB_bind, toB_libCall, toB_ite]
  refine bind_congr fun b => ite_congr rfl (fun _ => rfl) fun _ => ?_
  generalize signatureSize type = n
  cases n <;> cases out <;> first | rfl | skip
  simp only [toB_ite, toB_pure, edSign_toB, ecSign_toB]

theorem ecPublic_toB (type : UInt32) (c : Curve) (x : Nat) (n : UInt64) (d : Bytes) (sz : UInt64) :
    L.toB lib (ecPublicKeyL lib.fns type c x n d sz) = ecPublicKey lib type c x n d sz := by
  unfold ecPublicKeyL ecPublicKey
  simp only [toB_ite, toB_bind, toB_libCall, toB_lift, toB_pure]
  rfl

theorem edPublic_toB (type : UInt32) (seed d : Bytes) (sz : UInt64) :
    L.toB lib (edPublicKeyL lib.fns type seed d sz) = edPublicKey lib type seed d sz := by
  unfold edPublicKeyL edPublicKey
  simp only [toB_ite, toB_bind, toB_libCall, toB_lift, toB_pure]
  rfl

/-! ## Calls -/

/-- A call with nobody else around. -/
def CallProg.alone (lib : Lib) : CallProg → B ApiReply
  | .load p k => do
    let key ← loadKey p
    let f ← L.toB lib (k key)
    f.commit
  | .run l => do
    let f ← L.toB lib l
    f.commit

theorem alone_reply (l : L Reply) (m : B Reply) (h : L.toB lib l = m) : (do let f ← L.toB lib (replyL l); f.commit) = (do return (← m).api : B ApiReply) := by
  subst h
  unfold replyL
  rw [toB_bind, bind_assoc]
  rfl

theorem alone_out (l : L (N20Error × Option Bytes)) (m : B (N20Error × Option Bytes)) (h : L.toB lib l = m) :
    (do let f ← L.toB lib (outL l); f.commit) = (do return outReply (← m) : B ApiReply) := by
  subst h
  unfold outL
  rw [toB_bind, bind_assoc]
  rfl

theorem keyFinal_alone (bits : Bytes) (type : UInt32) (context : Option GatherList) (old : Option Nat) :
    (do let f ← L.toB lib (keyFinalL (bsslKdfKeyL lib.fns bits type context) old); f.commit)
      = (do return (← keyReply (bsslKdfRun lib bits type context) old).api : B ApiReply) := by
  unfold keyFinalL keyReply bsslKdfRun
  rw [toB_bind, toB_run, kdfKey_toE, bind_assoc, ExceptT.run_bind, bind_assoc, bind_assoc]
  refine bind_congr fun r => ?_
  cases r <;> rfl

theorem kdf_alone (k : BsslKey) (type : UInt32) (context : Option GatherList) (keyOut : Option (Option Nat)) :
    (do let f ← L.toB lib (bsslKdfL lib.fns k type context keyOut); f.commit)
      = (if k.type ≠ 4 then return { err := .invalidKey, key := keyOut }
        else do
          let bits ← liftB (castCdi k)
          match keyOut with
          | none => return { err := .nullKeyOut, key := keyOut }
          | some old => do return (← keyReply (bsslKdfRun lib bits type context) old).api : B ApiReply) := by
  unfold bsslKdfL
  by_cases h : k.type ≠ 4
  · rw [if_pos h, if_pos h]
    rfl
  · rw [if_neg h, if_neg h, toB_bind, toB_lift, bind_assoc]
    refine bind_congr fun bits => ?_
    cases keyOut
    · rfl
    · exact keyFinal_alone ..

theorem sign_toB (k : BsslKey) (msg : Option GatherList) (out : Option Bytes) (sz : UInt64) :
    L.toB lib (bsslSignL lib.fns k msg out sz) = (if k.type = 4 then return ⟨.invalidKey, out, some sz⟩
      else do
        let key ← liftB (castEvp k)
        bsslSignRun lib k.type key msg out sz) := by
  unfold bsslSignL
  simp only [toB_ite, toB_bind, toB_lift, signRun_toB, toB_pure]

theorem publicKey_toB (k : BsslKey) (out : Option Bytes) (sz : UInt64) :
    L.toB lib (bsslPublicKeyL lib.fns k out sz) = (match publicKeySize k.type, out with
      | none, _ => return ⟨.invalidKey, out, some sz⟩
      | some n, none => return ⟨.insufficientBufferSize, out, some n⟩
      | some n, some d =>
        if sz < n then return ⟨.insufficientBufferSize, out, some n⟩
        else do
          let key ← liftB (castEvp k)
          match key with
          | .ec curve x => ecPublicKey lib k.type curve x n d sz
          | .ed25519 seed => edPublicKey lib k.type seed d sz) := by
  unfold bsslPublicKeyL
  generalize publicKeySize k.type = n
  cases n <;> cases out <;> first | rfl | skip
  simp only [toB_ite, toB_bind, toB_lift, toB_pure]
  refine ite_congr rfl (fun _ => rfl) fun _ => bind_congr fun key => ?_
  cases key
  · exact edPublic_toB ..
  · exact ecPublic_toB ..

theorem makeSecret_alone (ctx : Option Unit) (secret : Option Slice) (keyOut : Option (Option Nat)) :
    (do let f ← L.toB lib (bsslMakeSecretL ctx secret keyOut); f.commit) = (do return (← bsslMakeSecret ctx secret keyOut).api : B ApiReply) := by
  unfold bsslMakeSecretL bsslMakeSecret
  cases ctx
  · rfl
  cases secret with
  | none => rfl
  | some s =>
    dsimp only
    cases s.buffer with
    | none => rfl
    | some p =>
      dsimp only
      by_cases hs : s.size = 0
      · rw [if_pos hs, if_pos hs]
        rfl
      · rw [if_neg hs, if_neg hs]
        cases keyOut with
        | none => rfl
        | some old =>
          dsimp only
          rw [toB_bind, toB_lift, bind_assoc, bind_assoc]
          rfl

/-- With nobody else around, the program of a call is the call. -/
theorem prog_alone (op : ApiOp) : (op.prog lib.fns).alone lib = op.run lib := by
  match op with
  | .key (.kdf none _ _ _ _) => rfl
  | .key (.kdf (some _) none _ _ _) => rfl
  | .key (.kdf (some _) (some p) type context keyOut) =>
    show (do let key ← loadKey p; let f ← L.toB lib (bsslKdfL lib.fns key type context keyOut); f.commit) = (do return (← bsslKdf lib (some ()) (some p) type context keyOut).api : B ApiReply)
    unfold bsslKdf
    dsimp only
    rw [bind_assoc]
    refine bind_congr fun k => (kdf_alone ..).trans ?_
    by_cases h : k.type ≠ 4
    · rw [if_pos h, if_pos h]
      rfl
    · rw [if_neg h, if_neg h, bind_assoc]
      refine bind_congr fun bits => ?_
      cases keyOut <;> rfl
  | .key (.sign none _ _ _ _) => rfl
  | .key (.sign (some _) none _ _ _) => rfl
  | .key (.sign (some _) (some _) _ _ none) => rfl
  | .key (.sign (some _) (some p) msg out (some sz)) =>
    show (do let key ← loadKey p; let f ← L.toB lib (replyL (bsslSignL lib.fns key msg out sz)); f.commit) = (do return (← bsslSign lib (some ()) (some p) msg out (some sz)).api : B ApiReply)
    unfold bsslSign
    dsimp only
    rw [bind_assoc]
    exact bind_congr fun k => alone_reply lib _ _ (sign_toB ..)
  | .key (.publicKey none _ _ _) => rfl
  | .key (.publicKey (some _) none _ _) => rfl
  | .key (.publicKey (some _) (some _) _ none) => rfl
  | .key (.publicKey (some _) (some p) out (some sz)) =>
    show (do let key ← loadKey p; let f ← L.toB lib (replyL (bsslPublicKeyL lib.fns key out sz)); f.commit) = (do return (← bsslPublicKey lib (some ()) (some p) out (some sz)).api : B ApiReply)
    unfold bsslPublicKey
    dsimp only
    rw [bind_assoc]
    refine bind_congr fun k => alone_reply lib _ _ ?_
    rw [publicKey_toB]
    generalize publicKeySize k.type = n
    cases n <;> cases out <;> rfl
  | .key (.free none _) => rfl
  | .key (.free (some _) none) => rfl
  | .key (.free (some _) (some p)) =>
    show (do deleteKey p; return { err := .ok }) = (do return { err := ← bsslKeyFree (some ()) (some p) } : B ApiReply)
    unfold bsslKeyFree
    dsimp only
    rw [bind_assoc]
    rfl
  | .key (.makeSecret ctx secret keyOut) => exact makeSecret_alone lib ctx secret keyOut
  | .digest ctx alg msg count out size => exact alone_reply lib _ _ (digest_toB ..)
  | .hmac ctx alg k msg out size => exact alone_reply lib _ _ (hmac_toB ..)
  | .hkdf ctx alg ikm salt info n out => exact alone_out lib _ _ (hkdf_toB ..)
  | .extract ctx alg ikm salt prk size => exact alone_reply lib _ _ (extract_toB ..)
  | .expand ctx alg prk info n out => exact alone_out lib _ _ (expand_toB ..)

end Nat20

import Verif.Spec.SizedDigest
import Verif.Lemmas.SizedAll
/-!
# Lemmas for C84: the digest functions with another `size_t`
-/

namespace Nat20.Sized

variable {w : Nat} (hw : w ≤ 64) (hw' : 16 ≤ w)

/-! ## SHA-2 -/

include hw' in
theorem rIndex_eq (i x : Nat) : rIndex w i x = Nat20.rIndex i x := by
  obtain ⟨v, rfl⟩ : ∃ v, w = v + 3 := ⟨w - 3, by omega⟩
  have h8 : 2 ^ (v + 3) = 8 * 2 ^ v := by rw [Nat.pow_add]; omega
  have hpos : 0 < 2 ^ v := Nat.pow_pos (by decide)
  have s7 : (7 : BitVec (v + 3)).toNat = 7 := small hw' 7 (by decide)
  have hand : ∀ n : Nat, n &&& 7 = n % 8 := fun n => Nat.and_two_pow_sub_one_eq_mod n 3
  have u7 : (7 : UInt64).toNat = 7 := rfl
  have key : ∀ m a b : Nat, 0 < m → ((8 * m - a % (8 * m) + 0) % (8 * m) + b % (8 * m)) % (8 * m) % 8 = (b + 7 * a) % 8 := by
    intro m a b hm
    have hm8 : ∀ n : Nat, n % (8 * m) % 8 = n % 8 := fun n => Nat.mod_mod_of_dvd n ⟨m, rfl⟩
    rw [hm8, Nat.add_mod, hm8, hm8]
    have h1 := hm8 a
    have h2 : a % (8 * m) < 8 * m := Nat.mod_lt _ (by omega)
    omega
  apply Fin.ext
  simp only [rIndex, Nat20.rIndex, Fin.ofNat, BitVec.toNat_and, UInt64.toNat_and, s7, u7, hand, BitVec.toNat_add, BitVec.toNat_sub, BitVec.toNat_ofNat,
    UInt64.toNat_add, UInt64.toNat_sub, UInt64.toNat_ofNat', UInt64.toNat_zero]
  have k1 := key (2 ^ v) i x hpos
  have k2 := key (2 ^ 61) i x (by decide)
  rw [h8]
  rw [show 8 * 2 ^ 61 = 2 ^ 64 from by decide] at k2
  rw [show (0 : BitVec (v + 3)).toNat = 0 from by simp, Nat.mod_mod, Nat.mod_mod, k1, k2]

include hw' in
theorem shaMain_eq {b : Nat} (P : ShaCode b) (s : ShaState b) : shaMain w P s = Nat20.shaMain P s := by
  have hr : ∀ j t R, shaRound w P j t R = Nat20.shaRound P j t R := by
    intro j t R
    unfold shaRound Nat20.shaRound
    simp only [rIndex_eq hw']
  have h16 : ∀ W R n, shaRounds16 w P W R n = Nat20.shaRounds16 P W R n := by
    intro W R n
    induction n with
    | zero => rfl
    | succ n ih => rw [shaRounds16, Nat20.shaRounds16, ih, hr]
  have hext : ∀ s n, shaRoundsExt w P s n = Nat20.shaRoundsExt P s n := by
    intro s n
    induction n with
    | zero => rfl
    | succ n ih =>
      rw [shaRoundsExt, Nat20.shaRoundsExt, ih]
      simp only [hr]
  unfold shaMain Nat20.shaMain
  rw [hext, h16]

include hw' in
theorem shaUpdateLoop_eq {b : Nat} (P : ShaCode b) (n : Nat) (s : ShaState b) (data : Bytes) : shaUpdateLoop w P n s data = Nat20.shaUpdateLoop P n s data := by
  induction n generalizing s data with
  | zero => rfl
  | succ n ih =>
    rw [shaUpdateLoop, Nat20.shaUpdateLoop]
    simp only [shaMain_eq hw', ih]

include hw hw' in
theorem shaUpdate_eq {b : Nat} (P : ShaCode b) (s : Option (ShaState b)) (data : Slice w) : shaUpdate w P s data = Nat20.shaUpdate P s data.wide := by
  obtain ⟨size, buffer⟩ := data
  unfold shaUpdate Nat20.shaUpdate Slice.wide
  simp only [shaUpdateLoop_eq hw', toUInt64_toNat hw]
  cases s <;> cases buffer <;> rfl

include hw' in
theorem shaFinalize_eq {b : Nat} (P : ShaCode b) (s : Option (ShaState b)) (d : Option Bytes) (n : Nat) : shaFinalize w P s d n = Nat20.shaFinalize P s d n := by
  unfold shaFinalize Nat20.shaFinalize shaFinishBlock Nat20.shaFinishBlock
  simp only [shaMain_eq hw']
  cases s <;> rfl

/-! ## Digests -/

include hw' in
theorem enum_eq (alg : UInt32) : toUInt64 (digestEnumToSize alg : BitVec w) = Nat20.digestEnumToSize alg := by
  have h : ∀ n, n < 65536 → toUInt64 (BitVec.ofNat w n) = UInt64.ofNat n := fun n hn => by unfold toUInt64; rw [ofNat_toNat hw' hn]
  unfold digestEnumToSize Nat20.digestEnumToSize
  split
  · exact h 28 (by decide)
  split
  · exact h 32 (by decide)
  split
  · exact h 48 (by decide)
  split
  · exact h 64 (by decide)
  · exact h 0 (by decide)

include hw in
theorem zero_iff (x : BitVec w) : x = 0 ↔ toUInt64 x = 0 := by
  rw [← BitVec.toNat_inj, ← UInt64.toNat_inj, toUInt64_toNat hw]
  simp

include hw in
theorem lt_iff (x y : BitVec w) : x < y ↔ toUInt64 x < toUInt64 y := by
  rw [BitVec.lt_def, UInt64.lt_iff_toNat_lt, toUInt64_toNat hw, toUInt64_toNat hw]

include hw hw' in
theorem digestUpdate_eq (alg : UInt32) (st : DigestState) (s : Slice w) : digestUpdate alg st s = Nat20.digestUpdate alg st s.wide := by
  unfold digestUpdate Nat20.digestUpdate sha256Update sha512Update Nat20.sha256Update Nat20.sha512Update
  simp only [shaUpdate_eq hw hw']

include hw hw' in
theorem digestList_eq (alg : UInt32) (n : Nat) (l : List (Slice w)) (st : DigestState) : digestList alg n l st = Nat20.digestList alg n (l.map Slice.wide) st := by
  induction n generalizing l st with
  | zero => cases l <;> rfl
  | succ n ih =>
    cases l with
    | nil => rfl
    | cons s l =>
      rw [List.map_cons, digestList, Nat20.digestList]
      simp only [ih, digestUpdate_eq hw hw', zero_iff hw]
      rfl

include hw hw' in
theorem digestGather_eq (alg : UInt32) (g : GatherList w) (st : DigestState) : digestGather alg g st = Nat20.digestGather alg g.wide st := by
  obtain ⟨count, list⟩ := g
  unfold digestGather Nat20.digestGather GatherList.wide
  simp only [digestList_eq hw hw', zero_iff hw, toUInt64_toNat hw]
  cases list <;> rfl

include hw hw' in
theorem digestLists_eq (alg : UInt32) (n : Nat) (l : List (GatherList w)) (st : DigestState) : digestLists alg n l st = Nat20.digestLists alg n (l.map GatherList.wide) st := by
  induction n generalizing l st with
  | zero => cases l <;> rfl
  | succ n ih =>
    cases l with
    | nil => rfl
    | cons g l =>
      rw [List.map_cons, digestLists, Nat20.digestLists]
      simp only [ih, digestGather_eq hw hw']

include hw' in
theorem digestFinalize_eq (alg : UInt32) (st : DigestState) (out : Option Bytes) : digestFinalize w alg st out = Nat20.digestFinalize alg st out := by
  unfold digestFinalize Nat20.digestFinalize sha224Finalize sha256Finalize sha384Finalize sha512Finalize Nat20.sha224Finalize Nat20.sha256Finalize Nat20.sha384Finalize Nat20.sha512Finalize
  simp only [shaFinalize_eq hw']

theorem map_ite {α β : Type} (f : α → β) {c c' : Prop} [Decidable c] [Decidable c'] (hc : c ↔ c') {x y : Except UB α} {x' y' : Except UB β} (h : c → x.map f = x') (h' : ¬ c → y.map f = y') :
    (if c then x else y).map f = if c' then x' else y' := by
  by_cases hh : c
  · rw [if_pos hh, if_pos (hc.1 hh), h hh]
  · rw [if_neg hh, if_neg (fun x => hh (hc.2 x)), h' hh]

theorem map_same {α : Type} (x : Except UB α) : x.map id = x := by cases x <;> rfl

theorem map_bind {α β γ δ : Type} (f : α → β) (g : γ → δ) {x : Except UB α} {x' : Except UB β} {k : α → Except UB γ} {k' : β → Except UB δ}
    (h : x.map f = x') (h' : ∀ a, x = .ok a → (k a).map g = k' (f a)) : (x >>= k).map g = x' >>= k' := by
  subst h
  cases x with
  | error e => rfl
  | ok a => exact h' a rfl

include hw hw' in
theorem digest_same : SameDigest (n20Digest (some ()) : DigestFn w) (Nat20.n20Digest (some ())) := by
  intro alg msg count out size
  unfold n20Digest Nat20.n20Digest digestInternal Nat20.digestInternal
  cases digestInit DigestState.zero alg with
  | none => rfl
  | some st =>
    cases size with
    | none => rfl
    | some sz =>
      refine map_ite _ ?_ (fun _ => ?_) fun _ => ?_
      · rw [gt_iff_lt, gt_iff_lt, lt_iff hw, enum_eq hw']
      · rw [← enum_eq (w := w) hw']
        rfl
      · unfold digestMessage Nat20.digestMessage
        match msg with
        | none => rfl
        | some [] => rfl
        | some (g :: gs) =>
          refine map_ite _ ?_ (fun _ => rfl) fun _ => ?_
          · show _ ↔ ¬ (toUInt64 g.count = 0) ∧ g.list.map (·.map Slice.wide) = none
            rw [← zero_iff hw]
            simp
          · refine map_bind id _ ?_ fun r _ => map_ite _ Iff.rfl (fun _ => ?_) fun _ => rfl
            · rw [digestLists_eq hw hw', toUInt64_toNat hw]
              exact map_same _
            · refine map_bind id _ ?_ fun o _ => ?_
              · rw [digestFinalize_eq hw']
                exact map_same _
              · rw [← enum_eq (w := w) hw']
                rfl

/-! ## HMAC and HKDF -/

theorem getD_wide (r : Reply w) (d : BitVec w) : toUInt64 (r.size.getD d) = (r.wide.size).getD (toUInt64 d) := by
  unfold Reply.wide
  cases r.size <;> rfl

include hw' in
theorem wide_of (n : Nat) (h : n < 65536) : toUInt64 (BitVec.ofNat w n) = UInt64.ofNat n := by unfold toUInt64; rw [ofNat_toNat hw' h]

include hw' in
theorem wide_one : toUInt64 (1 : BitVec w) = 1 := wide_of hw' 1 (by decide)

include hw' in
theorem wide_two : toUInt64 (2 : BitVec w) = 2 := wide_of hw' 2 (by decide)

include hw' in
theorem wide_three : toUInt64 (3 : BitVec w) = 3 := wide_of hw' 3 (by decide)

include hw' in
theorem hmacBlock_eq (alg : UInt32) : toUInt64 (hmacBlock alg : BitVec w) = Nat20.hmacBlock alg := by
  unfold hmacBlock Nat20.hmacBlock
  split
  · exact wide_of hw' 64 (by decide)
  · exact wide_of hw' 128 (by decide)

include hw in
theorem hmacXor_eq (block : BitVec w) (x : UInt8) (K : Bytes) : hmacXor block x K = Nat20.hmacXor (toUInt64 block) x K := by
  unfold hmacXor Nat20.hmacXor
  rw [toUInt64_toNat hw]

section
variable {digest : DigestFn w} {digest' : Nat20.DigestFn} (hd : SameDigest digest digest')

include hw hw' hd in
theorem hmacKey_eq (alg : UInt32) (key : Slice w) (block size : BitVec w) (K : Bytes) :
    (hmacKey digest alg key block size K).map (fun r => (r.1, r.2.1, toUInt64 r.2.2)) = Nat20.hmacKey digest' alg key.wide (toUInt64 block) (toUInt64 size) K := by
  unfold hmacKey Nat20.hmacKey
  refine map_ite _ ?_ (fun _ => ?_) fun _ => ?_
  · rw [gt_iff_lt, gt_iff_lt, lt_iff hw]
    rfl
  · refine map_bind Reply.wide _ ?_ fun r _ => ?_
    · rw [hd]
      simp only [Option.map, List.map, GatherList.wide, wide_one hw']
    · show Except.ok (r.err, r.out.getD K, toUInt64 (r.size.getD size)) = Except.ok _
      rw [getD_wide]
      rfl
  · refine map_bind id _ ?_ fun r _ => rfl
    rw [sim_memcpy (w := w) (some K) key.buffer 0 key.size 0 key.wide.size (by simp) (by unfold Slice.wide; rw [toUInt64_toNat hw]), map_same]
    rfl

include hw hw' hd in
theorem hmacOuter_eq (alg : UInt32) (block dsize : BitVec w) (K inner : Bytes) (out : Option Bytes) (size : BitVec w) :
    (hmacOuter digest alg block dsize K inner out size).map Reply.wide = Nat20.hmacOuter digest' alg (toUInt64 block) (toUInt64 dsize) K inner out (toUInt64 size) := by
  unfold hmacOuter Nat20.hmacOuter
  rw [hd]
  simp only [Option.map, List.map, GatherList.wide, Slice.wide, wide_one hw', wide_two hw', hmacXor_eq hw]

include hw hw' hd in
theorem hmacBody_eq (alg : UInt32) (block dsize : BitVec w) (K inner : Bytes) (msg : Option (GatherList w)) (out : Option Bytes) (size : BitVec w) :
    (hmacBody digest alg block dsize K inner msg out size).map Reply.wide =
      Nat20.hmacBody digest' alg (toUInt64 block) (toUInt64 dsize) K inner (msg.map GatherList.wide) out (toUInt64 size) := by
  unfold hmacBody Nat20.hmacBody
  cases msg with
  | none => rfl
  | some g =>
    refine map_ite _ ?_ (fun _ => rfl) fun _ => ?_
    · show _ ↔ ¬ (toUInt64 g.count = 0) ∧ g.list.map (·.map Slice.wide) = none
      rw [← zero_iff hw]
      simp
    · refine map_bind Reply.wide _ ?_ fun r _ => map_ite _ Iff.rfl (fun _ => ?_) fun _ => rfl
      · rw [hd]
        simp only [Option.map, List.map, GatherList.wide, Slice.wide, wide_one hw', wide_two hw', hmacXor_eq hw]
      · rw [hmacOuter_eq hw hw' hd, getD_wide, hmacXor_eq hw]
        rfl

include hw hw' hd in
theorem hmacInternal_same (K inner : Bytes) : SameHmac (hmacInternal digest K inner) (Nat20.hmacInternal digest' K inner) := by
  intro alg key msg out size
  unfold hmacInternal Nat20.hmacInternal
  refine map_ite _ (by rw [zero_iff hw, enum_eq hw']) (fun _ => rfl) fun _ => ?_
  cases size with
  | none => rfl
  | some sz =>
    refine map_ite _ ?_ (fun _ => rfl) fun _ => map_ite _ ?_ (fun _ => ?_) fun _ => ?_
    · rw [Ne, zero_iff hw]
      rfl
    · rw [lt_iff hw, enum_eq hw']
    · rw [← enum_eq (w := w) hw']
      rfl
    · refine map_bind _ _ (hmacKey_eq hw hw' hd _ _ _ _ _ |>.trans ?_) fun r _ => map_ite _ Iff.rfl (fun _ => ?_) fun _ => rfl
      · rw [enum_eq hw', hmacBlock_eq hw']
      · rw [hmacBody_eq hw hw' hd, hmacBlock_eq hw']

include hw hw' hd in
theorem hmac_same : SameHmac (n20Hmac (some digest)) (Nat20.n20Hmac (some digest')) := hmacInternal_same hw hw' hd _ _

end

section
variable {hmac : HmacFn w} {hmac' : Nat20.HmacFn} (hh : SameHmac hmac hmac')

include hw in
theorem null_iff (s : Slice w) : s.buffer = none ∧ s.size ≠ 0 ↔ s.wide.buffer = none ∧ s.wide.size ≠ 0 := by
  rw [Ne, zero_iff hw]
  rfl

include hw hw' hh in
theorem extract_same : SameExtract (n20HkdfExtract (some hmac)) (Nat20.n20HkdfExtract (some hmac')) := by
  intro alg ikm salt prk size
  unfold n20HkdfExtract Nat20.n20HkdfExtract
  refine map_ite _ (by rw [zero_iff hw, enum_eq hw']) (fun _ => rfl) fun _ => map_ite _ (null_iff hw _) (fun _ => rfl) fun _ => map_ite _ (null_iff hw _) (fun _ => rfl) fun _ => ?_
  cases size with
  | none => rfl
  | some sz =>
    refine map_ite _ ?_ (fun _ => ?_) fun _ => ?_
    · rw [lt_iff hw, enum_eq hw']
    · rw [← enum_eq (w := w) hw']
      rfl
    · rw [hh]
      simp only [Option.map, List.map, GatherList.wide, wide_one hw']

def ExpandState.wide (s : ExpandState w) : Nat20.ExpandState := ⟨toUInt64 s.keyOctets, toUInt64 s.digestSize, s.mem, s.off, s.prev.map fun p => (p.1, toUInt64 p.2), s.i⟩

include hw' in
theorem expandInput_eq (mem : Bytes) (prev : Option (Nat × BitVec w)) (info : Slice w) (i : UInt8) :
    (expandInput mem prev info i).wide = Nat20.expandInput mem (prev.map fun p => (p.1, toUInt64 p.2)) info.wide i := by
  unfold expandInput Nat20.expandInput
  cases prev with
  | none =>
    simp only [GatherList.wide, Option.map, List.map, Slice.wide, wide_one hw', wide_three hw']
    rw [show toUInt64 (0 : BitVec w) = 0 from wide_of hw' 0 (by decide)]
  | some p => simp only [GatherList.wide, Option.map, List.map, Slice.wide, wide_one hw', wide_three hw']

variable (hk : KeepsSize hmac)

include hw hw' hh hk in
theorem expandStep_eq (alg : UInt32) (prk info : Slice w) (s : ExpandState w) (hs : s.digestSize = digestEnumToSize alg) (hge : s.keyOctets ≥ s.digestSize) :
    (expandStep hmac alg prk info s).map ExpandState.wide = Nat20.expandStep hmac' alg prk.wide info.wide s.wide ∧
    ∀ t, expandStep hmac alg prk info s = .ok t → t.digestSize = digestEnumToSize alg ∧ t.off + t.keyOctets.toNat = s.off + s.keyOctets.toNat := by
  obtain ⟨ko, ds, mem, off, prev, i⟩ := s
  subst hs
  have hge' : (digestEnumToSize alg : BitVec w).toNat ≤ ko.toNat := BitVec.le_def.1 hge
  have hsub : (ko - digestEnumToSize alg).toNat = ko.toNat - (digestEnumToSize alg : BitVec w).toNat := BitVec.toNat_sub_of_le hge
  unfold expandStep Nat20.expandStep
  constructor
  · refine map_bind Reply.wide _ ?_ fun r hr => ?_
    · rw [hh]
      simp only [Option.map_some, expandInput_eq hw', ExpandState.wide]
    · have hrs := hk _ _ _ _ _ hr
      have e1 : r.size.getD (digestEnumToSize alg) = digestEnumToSize alg := by rw [hrs]; rfl
      have e2 : r.wide.size.getD (toUInt64 (digestEnumToSize alg : BitVec w)) = toUInt64 (digestEnumToSize alg : BitVec w) := by rw [← getD_wide, e1]
      have e3 : toUInt64 (ko - digestEnumToSize alg) = toUInt64 ko - toUInt64 (digestEnumToSize alg : BitVec w) := by
        apply UInt64.toNat_inj.1
        rw [toUInt64_toNat hw]
        exact sub_toNat _ _ _ _ (toUInt64_toNat hw _).symm (toUInt64_toNat hw _).symm hge'
      show Except.ok _ = Except.ok _
      simp only [ExpandState.wide, e1, e2, e3, Option.map_some, toUInt64_toNat hw]
      rfl
  · intro t ht
    cases hr : hmac alg prk (some (expandInput mem prev info i)) (some (mem.drop off)) (some (digestEnumToSize alg)) with
    | error e =>
      simp only [hr] at ht
      cases ht
    | ok r =>
      simp only [hr] at ht
      have hrs := hk _ _ _ _ _ hr
      have e1 : r.size.getD (digestEnumToSize alg) = digestEnumToSize alg := by rw [hrs]; rfl
      cases ht
      simp only [e1, hsub]
      exact ⟨trivial, by omega⟩

include hw hw' hh hk in
theorem expandLoop_eq (alg : UInt32) (prk info : Slice w) (fuel : Nat) (s : ExpandState w) (hs : s.digestSize = digestEnumToSize alg) :
    (expandLoop hmac alg prk info fuel s).map ExpandState.wide = Nat20.expandLoop hmac' alg prk.wide info.wide fuel s.wide ∧
    ∀ t, expandLoop hmac alg prk info fuel s = .ok t → t.digestSize = digestEnumToSize alg ∧ t.off + t.keyOctets.toNat = s.off + s.keyOctets.toNat := by
  induction fuel generalizing s with
  | zero => exact ⟨rfl, fun t h => by cases h⟩
  | succ n ih =>
    rw [expandLoop, Nat20.expandLoop]
    by_cases hge : s.keyOctets ≥ s.digestSize
    · have hge' : s.wide.keyOctets ≥ s.wide.digestSize := by
        show toUInt64 s.digestSize ≤ toUInt64 s.keyOctets
        rw [UInt64.le_iff_toNat_le, toUInt64_toNat hw, toUInt64_toNat hw]
        exact BitVec.le_def.1 hge
      rw [if_pos hge, if_pos hge']
      obtain ⟨h1, h2⟩ := expandStep_eq hw hw' hh hk alg prk info s hs hge
      rw [← h1]
      cases hx : expandStep hmac alg prk info s with
      | error e => exact ⟨rfl, fun t h => by cases h⟩
      | ok u =>
        obtain ⟨i1, i2⟩ := ih u (h2 u hx).1
        exact ⟨i1, fun t ht => by
          obtain ⟨a, b⟩ := i2 t ht
          exact ⟨a, b.trans (h2 u hx).2⟩⟩
    · have hge' : ¬ s.wide.keyOctets ≥ s.wide.digestSize := by
        show ¬ toUInt64 s.digestSize ≤ toUInt64 s.keyOctets
        rw [UInt64.le_iff_toNat_le, toUInt64_toNat hw, toUInt64_toNat hw]
        exact fun h => hge (BitVec.le_def.2 h)
      rw [if_neg hge, if_neg hge']
      exact ⟨rfl, fun t h => by cases h; exact ⟨hs, rfl⟩⟩

include hw hw' hh in
theorem expandRest_eq (alg : UInt32) (prk info : Slice w) (s : ExpandState w) (hs : s.off < 2 ^ w) :
    expandRest hmac alg prk info s = Nat20.expandRest hmac' alg prk.wide info.wide s.wide := by
  unfold expandRest Nat20.expandRest
  rw [← map_same (if s.keyOctets > 0 then _ else _)]
  refine map_ite _ ?_ (fun _ => ?_) fun _ => rfl
  · rw [gt_iff_lt, lt_iff hw, show toUInt64 (0 : BitVec w) = 0 from wide_of hw' 0 (by decide)]
    rfl
  · refine map_bind Reply.wide _ ?_ fun r _ => map_ite _ Iff.rfl (fun _ => ?_) fun _ => rfl
    · rw [hh]
      simp only [Option.map_some, expandInput_eq hw', ExpandState.wide]
    · refine map_bind id _ ?_ fun m _ => rfl
      rw [map_same]
      refine sim_memcpy _ _ _ _ _ _ ?_ (toUInt64_toNat hw _).symm
      rw [BitVec.toNat_ofNat, Nat.mod_eq_of_lt hs]
      show _ = (UInt64.ofNat s.off).toNat
      rw [UInt64.toNat_ofNat', Nat.mod_eq_of_lt (Nat.lt_of_lt_of_le hs (Nat.pow_le_pow_right (by decide) hw))]

include hw hw' hh hk in
theorem expand_same : SameExpand (n20HkdfExpand (some hmac)) (Nat20.n20HkdfExpand (some hmac')) := by
  intro alg prk info keyOctets out
  unfold n20HkdfExpand Nat20.n20HkdfExpand
  simp only
  rw [← map_same (if digestEnumToSize alg = (0 : BitVec w) then _ else _)]
  refine map_ite _ (by rw [zero_iff hw, enum_eq hw']) (fun _ => rfl) fun _ => map_ite _ (null_iff hw _) (fun _ => rfl) fun _ => map_ite _ (null_iff hw _) (fun _ => rfl) fun _ =>
    map_ite _ (zero_iff hw _) (fun _ => rfl) fun _ => ?_
  cases out with
  | none => rfl
  | some mem =>
    obtain ⟨h1, h2⟩ := expandLoop_eq hw hw' hh hk alg prk info (keyOctets.toNat + 1) ⟨keyOctets, digestEnumToSize alg, mem, 0, none, 1⟩ rfl
    refine map_bind ExpandState.wide _ ?_ fun t ht => ?_
    · rw [h1, toUInt64_toNat hw]
      simp only [ExpandState.wide, enum_eq hw', Option.map_none]
    · rw [map_same]
      refine expandRest_eq hw hw' hh alg prk info t ?_
      have := (h2 t ht).2
      have hk := keyOctets.isLt
      simp only at this
      omega

end

include hw hw' in
theorem hkdf_same {extract : ExtractFn w} {extract' : Nat20.ExtractFn} {expand : ExpandFn w} {expand' : Nat20.ExpandFn} (he : SameExtract extract extract') (hx : SameExpand expand expand') :
    SameHkdf (n20Hkdf (some (extract, expand))) (Nat20.n20Hkdf (some (extract', expand'))) := by
  intro alg ikm salt info keyOctets out
  unfold n20Hkdf Nat20.n20Hkdf
  simp only
  rw [← map_same (if digestEnumToSize alg = (0 : BitVec w) then _ else _)]
  refine map_ite _ (by rw [zero_iff hw, enum_eq hw']) (fun _ => rfl) fun _ => map_ite _ (null_iff hw _) (fun _ => rfl) fun _ => map_ite _ (null_iff hw _) (fun _ => rfl) fun _ =>
    map_ite _ (null_iff hw _) (fun _ => rfl) fun _ => ?_
  refine map_bind Reply.wide _ ?_ fun r _ => map_ite _ Iff.rfl (fun _ => ?_) fun _ => rfl
  · rw [he, Option.map_some, enum_eq hw']
  · rw [map_same, hx]
    simp only [Slice.wide, getD_wide, enum_eq hw']
    rfl

/-! ## The size after a call -/

theorem digest_size (alg : UInt32) (msg : Option (List (GatherList w))) (count : BitVec w) (out : Option Bytes) (size : BitVec w) (r : Reply w)
    (h : n20Digest (some ()) alg msg count out (some size) = .ok r) : r.size = some size ∨ r.size = some (digestEnumToSize alg) := by
  unfold n20Digest digestInternal at h
  simp only at h
  cases hi : digestInit DigestState.zero alg with
  | none =>
    simp only [hi] at h
    cases h
    exact .inl rfl
  | some st =>
    simp only [hi] at h
    split at h
    · cases h
      exact .inr rfl
    · unfold digestMessage at h
      match msg, h with
      | none, h => cases h; exact .inl rfl
      | some [], h => cases h
      | some (g :: gs), h =>
        simp only at h
        split at h
        · cases h
          exact .inl rfl
        · cases hl : digestLists alg count.toNat (g :: gs) st with
          | error e => rw [hl] at h; cases h
          | ok x =>
            rw [hl] at h
            change (if x.1 = .ok then _ else _) = _ at h
            split at h
            · cases hf : digestFinalize w alg x.2 out with
              | error e => rw [hf] at h; cases h
              | ok o =>
                rw [hf] at h
                cases h
                exact .inr rfl
            · cases h
              exact .inl rfl

theorem hmac_keeps : KeepsSize (n20Hmac (some (n20Digest (some ()))) : HmacFn w) := by
  intro alg key msg out r h
  unfold n20Hmac hmacInternal at h
  simp only at h
  split at h
  · cases h; rfl
  split at h
  · cases h; rfl
  split at h
  · cases h; rfl
  cases hk : hmacKey (n20Digest (some ())) alg key (hmacBlock alg) (digestEnumToSize alg) (List.replicate 128 0) with
  | error e => rw [hk] at h; cases h
  | ok k =>
    rw [hk] at h
    change (if k.1 = .ok then _ else _) = _ at h
    split at h
    · unfold hmacBody at h
      cases msg with
      | none => cases h; rfl
      | some g =>
        simp only at h
        split at h
        · cases h; rfl
        · generalize hx : n20Digest (some ()) alg _ 2 _ _ = x at h
          cases x with
          | error e => cases h
          | ok x =>
            change (if x.err = .ok then _ else _) = _ at h
            split at h
            · unfold hmacOuter at h
              rcases digest_size _ _ _ _ _ _ h with h | h <;> exact h
            · cases h; rfl
    · cases h; rfl

end Nat20.Sized

import Verif.Lemmas.Dice
import Verif.Props.X509
/-!
# C34-C36, C51: DICE certificate extensions

`Verif/Spec/Dice.lean` defines the DER trees of the extensions from their ASN.1 modules (`Pki.OpenDiceValue.der`,
`Pki.TcbInfoValue.der`) and which field values the arguments of the library denote.
-/

namespace Nat20

open Der Pki

/-! ## C34 -/

/-- Some fields given, one of them empty. -/
def exampleDice : OpenDiceInput where
  codeHash := ⟨3, some ⟨[], [1, 2, 3]⟩⟩
  codeDescriptor := Slice.null
  configurationHash := ⟨0, some ⟨[], []⟩⟩
  configurationDescriptor := Slice.null
  authorityHash := ⟨1, some ⟨[], [4, 5]⟩⟩
  authorityDescriptor := Slice.null
  mode := 1
  profileName := ⟨2, some ⟨[], [0x61, 0x62]⟩⟩

theorem slice_null_valid : Slice.null.Valid := by intro p hp; cases hp

theorem exampleDice_arg (fr : Frame) : OpenDiceArg fr exampleDice where
  codeHash := slice_valid_of_le _ _ _ (by decide)
  codeDescriptor := slice_null_valid
  configurationHash := slice_valid_of_le _ _ _ (by decide)
  configurationDescriptor := slice_null_valid
  authorityHash := slice_valid_of_le _ _ _ (by decide)
  authorityDescriptor := slice_null_valid
  profileName := slice_valid_of_le _ _ _ (by decide)
  mode := Or.inr (by decide)

/-- **C34** (partial). The Open DICE input renders as the SEQUENCE of its explicitly tagged members, absent exactly if the
buffer is NULL; the strict parser reads exactly this tree.  Missing: mode 0 (not configured) if the byte next to the local copy
of the mode cannot be read, see `C34_reads_outside`. -/
theorem C34_open_dice_input_partial (fr : Frame) (i : OpenDiceInput) (h : OpenDiceArg fr i) :
    ∃ bs, Prepends (openDiceInputContent fr (some i)) bs ∧
      (bs.length < 2 ^ 64 → Der.parse bs = some (sequence (
        ifPresent (fun c => .cons 2 0 [octetString c]) (sliceValue i.codeHash) ++
        (ifPresent (fun c => .cons 2 1 [octetString c]) (sliceValue i.codeDescriptor) ++
        (ifPresent (fun c => .cons 2 2 [octetString c]) (sliceValue i.configurationHash) ++
        (ifPresent (fun c => .cons 2 3 [octetString c]) (sliceValue i.configurationDescriptor) ++
        (ifPresent (fun c => .cons 2 4 [octetString c]) (sliceValue i.authorityHash) ++
        (ifPresent (fun c => .cons 2 5 [octetString c]) (sliceValue i.authorityDescriptor) ++
        ([.cons 2 6 [integer i.mode.toNat]] ++
        ifPresent (fun c => .cons 2 7 [utf8String c]) (sliceValue i.profileName)))))))))) :=
  ⟨_, prepends_openDice fr i h, fun hl => strictly_parsed _ (classOk_openDice _) hl⟩

/-- **C34.** Inputs with different field values render differently. -/
theorem C34_unambiguous_partial (fr fr' : Frame) (i j : OpenDiceInput) (hi : OpenDiceArg fr i) (hj : OpenDiceArg fr' j) (bs : Bytes)
    (hl : bs.length < 2 ^ 64) (h : Prepends (openDiceInputContent fr (some i)) bs)
    (h' : Prepends (openDiceInputContent fr' (some j)) bs) : openDiceValue i = openDiceValue j := by
  have h1 := Prepends.unique h (prepends_openDice fr i hi) hl
  have h2 := Prepends.unique h' (prepends_openDice fr' j hj) hl
  exact openDiceValue_inj (encode_injective (classOk_openDice _) (classOk_openDice _) (by rw [h1]; exact hl) (by rw [h1, h2]))

theorem C34_null (fr : Frame) : Prepends (openDiceInputContent fr none) [] := Prepends.pure

/-- **C34, negated** for mode 0: the byte next to a local variable is read, in every stream state and whatever the other fields are. -/
theorem C34_reads_outside (fr fr' : Frame) (hfr : fr.adjacent = []) (i : OpenDiceInput) (h : OpenDiceArg fr' i) (h0 : i.mode = 0) :
    Faults (openDiceInputContent fr (some i)) .oobRead :=
  faults_openDice fr fr' hfr i h h0

/-- Non-vacuity of C34, negated. -/
example : OpenDiceArg ⟨[1], [], false⟩ { exampleDice with mode := 0 } ∧
    openDiceInputContent ⟨[], [1, 2, 3], false⟩ (some { exampleDice with mode := 0 }) (some (streamInit none 0)) = .error .oobRead :=
  ⟨{ exampleDice_arg ⟨[1], [], false⟩ with mode := Or.inl (by simp [Frame.adjacent]) }, by decide +kernel⟩

/-- Non-vacuity of C34: the hypothesis holds for every frame, and the bytes. -/
example : (∀ fr, OpenDiceArg fr exampleDice) ∧
    openDiceInputContent ⟨[], [], false⟩ (some exampleDice) (some (streamInit (some (List.replicate 29 9)) 29)) =
      .ok ((), some ⟨some [0x30, 0x1b, 0xa0, 5, 4, 3, 1, 2, 3, 0xa2, 2, 4, 0, 0xa4, 3, 4, 1, 4, 0xa6, 3, 2, 1, 1,
        0xa7, 4, 0x0c, 2, 0x61, 0x62], 29, 29, false, false⟩) :=
  ⟨exampleDice_arg, by decide +kernel⟩

/-! ## C35 -/

/-- A TcbInfo with a vendor, an empty model, two firmware ids and some flags. -/
def exampleTcb : TcbInfo where
  vendor := ⟨2, some ⟨[], [0x61, 0x62]⟩⟩
  model := ⟨0, some ⟨[], []⟩⟩
  version := Slice.null
  svn := 1
  layer := 2
  index := -3
  fwids := some [⟨OID_SHA256, ⟨1, some ⟨[], [7]⟩⟩⟩, ⟨OID_SHA256, ⟨2, some ⟨[], [8, 9]⟩⟩⟩]
  fwidsCount := 2
  flags := ⟨#v[0x80, 0x80, 0, 0]⟩
  flagsMask := ⟨#v[0xff, 0x80, 0, 1]⟩
  vendorInfo := Slice.null
  type := ⟨1, some ⟨[], [5]⟩⟩

theorem exampleTcb_arg (fr : Frame) : TcbInfoArg fr exampleTcb where
  vendor := slice_valid_of_le _ _ _ (by decide)
  model := slice_valid_of_le _ _ _ (by decide)
  version := slice_null_valid
  vendorInfo := slice_null_valid
  type := slice_valid_of_le _ _ _ (by decide)
  fwids := by
    intro l hl
    cases hl
    refine ⟨by decide, ?_⟩
    intro f hf
    replace hf : f ∈ [⟨OID_SHA256, ⟨1, some ⟨[], [7]⟩⟩⟩, ⟨OID_SHA256, ⟨2, some ⟨[], [8, 9]⟩⟩⟩] := hf
    simp only [List.mem_cons, List.not_mem_nil, or_false] at hf
    rcases hf with rfl | rfl <;> exact slice_valid_of_le _ _ _ (by decide)
  numbers := Or.inr (by decide)

/-- **C35** (partial). TcbInfo renders as the SEQUENCE of its implicitly tagged members 0..10 in this order, with strings
absent exactly if the buffer is NULL and `fwids` absent exactly if the list is NULL; the strict parser reads exactly this tree.
Missing: svn, layer or index 0 or -1 if the byte next to their local copy cannot be read, see `C35_reads_outside`. -/
theorem C35_tcb_info_partial (fr : Frame) (t : TcbInfo) (h : TcbInfoArg fr t) :
    ∃ bs, Prepends (tcbInfoContent fr (some t)) bs ∧
      (bs.length < 2 ^ 64 → Der.parse bs = some (sequence (
        ifPresent (fun c => .prim 2 0 c) (sliceValue t.vendor) ++
        (ifPresent (fun c => .prim 2 1 c) (sliceValue t.model) ++
        (ifPresent (fun c => .prim 2 2 c) (sliceValue t.version) ++
        ([.prim 2 3 (intContent t.svn.toInt)] ++
        ([.prim 2 4 (intContent t.layer.toInt)] ++
        ([.prim 2 5 (intContent t.index.toInt)] ++
        (ifPresent (fun l => .cons 2 6 ((l.take t.fwidsCount.toNat).map fun f =>
            sequence [oidDer (oidValue (some f.hashAlgo)), octetString f.digest.bytes])) t.fwids ++
        ([.prim 2 7 (0 :: t.flags.mask.toList)] ++
        (ifPresent (fun c => .prim 2 8 c) (sliceValue t.vendorInfo) ++
        (ifPresent (fun c => .prim 2 9 c) (sliceValue t.type) ++
        [.prim 2 10 (0 :: t.flagsMask.mask.toList)])))))))))))) := by
  refine ⟨_, prepends_tcbInfo fr t h, fun hl => ?_⟩
  rw [strictly_parsed _ (classOk_tcbInfo _) hl]
  have hb : ∀ f : OperationalFlags, bitStringContent (bitsOf f.mask.toList) = 0 :: f.mask.toList := by
    intro f
    exact bitStringContent_bitsOf _
  have hf : (tcbInfoValue t).fwids.map (fun l => implicitly 6 (sequence (l.map FwidValue.der))) = t.fwids.map
      (fun l => .cons 2 6 ((l.take t.fwidsCount.toNat).map fun f =>
            sequence [oidDer (oidValue (some f.hashAlgo)), octetString f.digest.bytes])) := by
    simp only [tcbInfoValue, Option.map_map]
    congr 1
    funext l
    simp only [Function.comp, implicitly, Tagging.apply, sequence, List.map_map]
    rfl
  simp only [TcbInfoValue.der, ifPresent, hf]
  simp only [tcbInfoValue, implicitly, Tagging.apply, bitString, hb, utf8String, octetString, integer]

/-- **C35.** Values whose hash algorithms are standard OIDs and which render to the same bytes are the same. -/
theorem C35_unambiguous_partial (fr fr' : Frame) (t u : TcbInfo) (ht : TcbInfoArg fr t) (hu : TcbInfoArg fr' u)
    (ot : FwidsOk (tcbInfoValue t)) (ou : FwidsOk (tcbInfoValue u)) (bs : Bytes) (hl : bs.length < 2 ^ 64)
    (h : Prepends (tcbInfoContent fr (some t)) bs) (h' : Prepends (tcbInfoContent fr' (some u)) bs) :
    tcbInfoValue t = tcbInfoValue u := by
  have h1 := Prepends.unique h (prepends_tcbInfo fr t ht) hl
  have h2 := Prepends.unique h' (prepends_tcbInfo fr' u hu) hl
  exact tcbInfoValue_inj ot ou
    (encode_injective (classOk_tcbInfo _) (classOk_tcbInfo _) (by rw [h1]; exact hl) (by rw [h1, h2]))

theorem C35_null (fr : Frame) : Prepends (tcbInfoContent fr none) [] := Prepends.pure

/-- **C35, negated** if one of the numbers is 0 or -1: the byte next to a local variable is read, in every stream state and whatever the other fields are. -/
theorem C35_reads_outside (fr fr' : Frame) (hfr : fr.adjacent = []) (t : TcbInfo) (h : TcbInfoArg fr' t) (h0 : ∃ n ∈ [t.svn, t.layer, t.index], n = 0 ∨ n = -1) :
    Faults (tcbInfoContent fr (some t)) .oobRead :=
  faults_tcbInfo fr fr' hfr t h h0

/-- Non-vacuity of C35, negated. -/
example : TcbInfoArg ⟨[1], [], false⟩ { exampleTcb with svn := 0 } ∧
    tcbInfoContent ⟨[], [1, 2, 3], false⟩ (some { exampleTcb with svn := 0 }) (some (streamInit none 0)) = .error .oobRead ∧
    tcbInfoContent ⟨[], [1, 2, 3], false⟩ (some { exampleTcb with layer := -1 }) (some (streamInit none 0)) = .error .oobRead :=
  ⟨{ exampleTcb_arg ⟨[1], [], false⟩ with numbers := Or.inl (by simp [Frame.adjacent]) }, by decide +kernel, by decide +kernel⟩

/-- Non-vacuity of C35: the hypotheses hold for every frame, and the size of the rendering. -/
example : (∀ fr, TcbInfoArg fr exampleTcb) ∧ FwidsOk (tcbInfoValue exampleTcb) ∧
    (tcbInfoContent ⟨[], [], false⟩ (some exampleTcb) (some (streamInit none 0))).toOption.bind
      (fun r => r.2.map fun s => (s.bufferOverflow, s.writePosition)) = some (true, 69) := by
  refine ⟨exampleTcb_arg, ?_, by decide +kernel⟩
  intro l hl f hf
  have e : (tcbInfoValue exampleTcb).fwids = some [⟨oidValue (some OID_SHA256), [7]⟩, ⟨oidValue (some OID_SHA256), [8, 9]⟩] := rfl
  rw [e] at hl
  cases hl
  simp only [List.mem_cons, List.not_mem_nil, or_false] at hf
  rcases hf with rfl | rfl <;> exact exampleArcs_ok _ 2 16 _ rfl (by decide)

/-! ## C36 -/

/-- **C36** (partial). MultiTcbInfo renders as the SEQUENCE of the TcbInfos in the order of the list; a NULL list as the empty
SEQUENCE.  Missing: the numbers C35 excludes. -/
theorem C36_multi_tcb_info_partial (fr : Frame) (m : MultiTcbInfo)
    (h : ∀ l, m.list = some l → m.count.toNat ≤ l.length ∧ ∀ t ∈ l.take m.count.toNat, TcbInfoArg fr t) :
    ∃ bs, Prepends (multiTcbInfoContent fr (some m)) bs ∧
      (bs.length < 2 ^ 64 → Der.parse bs = some (sequence (((m.list.getD []).take m.count.toNat).map fun t => (tcbInfoValue t).der))) := by
  have hc : ∀ l : List TcbInfo, ClassesOk (l.map fun t => (tcbInfoValue t).der) := fun l => by
    exact classesOk_map (f := fun t => (tcbInfoValue t).der) (fun t => classOk_tcbInfo _) l
  cases hm : m.list with
  | none =>
    refine ⟨(sequence []).encode, ?_, fun hl => ?_⟩
    · refine prepends_sequence (ds := []) ?_
      unfold multiTcbInfoSequence
      rw [hm]
      exact Prepends.pure
    · rw [strictly_parsed _ (classOk_sequence (l := []) trivial) hl]
      simp
  | some l =>
    obtain ⟨h1, h2⟩ := h l hm
    refine ⟨_, prepends_sequence (ds := (l.take m.count.toNat).map fun t => (tcbInfoValue t).der) ?_, fun hl => ?_⟩
    · unfold multiTcbInfoSequence
      rw [hm]
      exact prepends_multiLoop fr l _ h1 h2
    · rw [strictly_parsed _ (classOk_sequence (hc _)) hl]
      rfl

/-- **C36, negated** if one of the numbers in one of the TcbInfos is 0 or -1. -/
theorem C36_reads_outside (fr fr' : Frame) (hfr : fr.adjacent = []) (m : MultiTcbInfo) (l : List TcbInfo) (hl : m.list = some l)
    (h : m.count.toNat ≤ l.length ∧ ∀ t ∈ l.take m.count.toNat, TcbInfoArg fr' t)
    (h0 : ∃ t ∈ l.take m.count.toNat, ∃ n ∈ [t.svn, t.layer, t.index], n = 0 ∨ n = -1) : Faults (multiTcbInfoContent fr (some m)) .oobRead := by
  refine Faults.sequence ?_
  unfold multiTcbInfoSequence
  rw [hl]
  exact faults_multiLoop fr fr' hfr l _ h.1 h.2 h0

/-- **C36.** UEID. -/
theorem C36_ueid (s : Slice) (h : s.Valid) :
    ∃ bs, Prepends (ueidContent (some s)) bs ∧ (bs.length < 2 ^ 64 → Der.parse bs = some (sequence [octetString s.bytes])) :=
  ⟨(sequence [octetString s.bytes]).encode, prepends_sequence (Prepends.singleDer
      (prepends_octetString (some s) tagInfoNoOverride (by intro x hx; cases hx; exact h))),
    fun hl => strictly_parsed _ (classOk_sequence ⟨by simp [octetString, Der.ClassOk], trivial⟩) hl⟩

/-- **C36.** Freshness. -/
theorem C36_freshness (s : Slice) (h : s.Valid) :
    ∃ bs, Prepends (freshnessContent (some s)) bs ∧ (bs.length < 2 ^ 64 → Der.parse bs = some (sequence [octetString s.bytes])) :=
  ⟨(sequence [octetString s.bytes]).encode, prepends_sequence (Prepends.singleDer
      (prepends_octetString (some s) tagInfoNoOverride (by intro x hx; cases hx; exact h))),
    fun hl => strictly_parsed _ (classOk_sequence ⟨by simp [octetString, Der.ClassOk], trivial⟩) hl⟩

/-- **C36.** NULL contexts. -/
theorem C36_null (fr : Frame) : Prepends (multiTcbInfoContent fr none) [] ∧ Prepends (ueidContent none) [] ∧
    Prepends (freshnessContent none) [] := ⟨Prepends.pure, Prepends.pure, Prepends.pure⟩

/-- Non-vacuity of C36. -/
example :
    (∀ fr l, (MultiTcbInfo.mk (some [exampleTcb, exampleTcb]) 2).list = some l →
      (2 : UInt64).toNat ≤ l.length ∧ ∀ t ∈ l.take (2 : UInt64).toNat, TcbInfoArg fr t) ∧
    (multiTcbInfoContent ⟨[], [], false⟩ (some ⟨some [exampleTcb, exampleTcb], 2⟩) (some (streamInit none 0))).toOption.bind
      (fun r => r.2.map fun s => (s.bufferOverflow, s.writePosition)) = some (true, 141) ∧
    ueidContent (some ⟨2, some ⟨[], [1, 2]⟩⟩) (some (streamInit (some [9, 9, 9, 9, 9, 9]) 6)) =
      .ok ((), some ⟨some [0x30, 4, 4, 2, 1, 2], 6, 6, false, false⟩) ∧
    freshnessContent (some Slice.null) (some (streamInit (some [9, 9, 9, 9]) 4)) =
      .ok ((), some ⟨some [0x30, 2, 4, 0], 4, 4, false, false⟩) := by
  refine ⟨?_, by decide +kernel, by decide +kernel, by decide +kernel⟩
  intro fr l hl
  cases hl
  refine ⟨by decide, fun t ht => ?_⟩
  have : t = exampleTcb := by simpa using List.mem_of_mem_take ht
  rw [this]
  exact exampleTcb_arg fr

/-! ## C51 -/

/-- The bit numbers TCG DICE assigns to the flags, in the order of the header: notConfigured (0), notSecure (1), recovery (2),
debug (3), notReplayProtected (4), notIntegrityProtected (5), notRuntimeMeasured (6), notImmutable (7), notTcb (8),
fixedWidth (31). -/
def operationalFlagBit (i : Fin 10) : Nat := if i = 9 then 31 else i.val

/-- The flags after applying the macros in `l` to a zero-initialised variable. -/
def operationalFlagsOf (l : List (Fin 10)) : OperationalFlags := l.foldl (fun f i => operationalFlagsSet i f) ⟨#v[0, 0, 0, 0]⟩

theorem operationalFlagsSet_list (i : Fin 10) (f : OperationalFlags) :
    (operationalFlagsSet i f).mask.toList = f.mask.toList.modify (operationalFlagBit i / 8)
      (· ||| UInt8.ofNat (2 ^ (7 - operationalFlagBit i % 8))) := by
  obtain ⟨⟨⟨l⟩, hl⟩⟩ := f
  match l, hl with
  | [a, b, c, d], hl =>
    match i with
    | 0 => rfl
    | 1 => rfl
    | 2 => rfl
    | 3 => rfl
    | 4 => rfl
    | 5 => rfl
    | 6 => rfl
    | 7 => rfl
    | 8 => rfl
    | 9 => rfl

/-- One macro sets its bit and leaves the other bits alone. -/
theorem operationalFlagsSet_bits (i : Fin 10) (f : OperationalFlags) (k : Nat) :
    (bitsOf (operationalFlagsSet i f).mask.toList)[k]? =
      (bitsOf f.mask.toList)[k]?.map (· || decide (k = operationalFlagBit i)) := by
  rw [operationalFlagsSet_list, bitsOf_getElem, bitsOf_getElem, List.getElem?_modify]
  generalize operationalFlagBit i = j
  cases f.mask.toList[k / 8]? with
  | none => simp
  | some x =>
    by_cases h : j / 8 = k / 8
    · have hm : (UInt8.ofNat (2 ^ (7 - j % 8))).toNat = 2 ^ (7 - j % 8) := by
        rw [UInt8.toNat_ofNat']
        exact Nat.mod_eq_of_lt (Nat.pow_lt_pow_right (by decide) (show 7 - j % 8 < 8 by omega))
      simp only [h, if_true, Option.map_some, Option.map_eq_map, UInt8.toNat_or, Nat.testBit_or, hm, Nat.testBit_two_pow]
      congr 2
      exact decide_eq_decide.2 (by omega)
    · have : decide (k = j) = false := decide_eq_false (by rintro rfl; exact h rfl)
      simp [h, this]

/-- **C51.** The rendered flags of TcbInfo have exactly the bits of the macros that were applied, in any order and
multiplicity. -/
theorem C51_operational_flags (l : List (Fin 10)) (i : Fin 10) :
    (bitsOf (operationalFlagsOf l).mask.toList)[operationalFlagBit i]? = some (decide (i ∈ l)) ∧
    (∀ k, (bitsOf (operationalFlagsOf l).mask.toList)[k]? = some true → ∃ j ∈ l, k = operationalFlagBit j) ∧
    (bitsOf (operationalFlagsOf l).mask.toList).length = 32 := by
  have key : ∀ (l : List (Fin 10)) (f : OperationalFlags) (k : Nat),
      (bitsOf (l.foldl (fun f i => operationalFlagsSet i f) f).mask.toList)[k]? =
        (bitsOf f.mask.toList)[k]?.map (· || decide (∃ j ∈ l, k = operationalFlagBit j)) := by
    intro l
    induction l with
    | nil => intro f k; simp
    | cons a l ih =>
      intro f k
      rw [List.foldl_cons, ih, operationalFlagsSet_bits, Option.map_map]
      congr 1
      funext x
      simp only [Function.comp, Bool.or_assoc, List.mem_cons, exists_eq_or_imp]
      congr 1
      by_cases h1 : k = operationalFlagBit a <;> simp [h1]
  have hz : ∀ k < 32, (bitsOf (⟨#v[0, 0, 0, 0]⟩ : OperationalFlags).mask.toList)[k]? = some false := by decide +kernel
  have hlen : ∀ f : OperationalFlags, (bitsOf f.mask.toList).length = 32 := by
    intro f; rw [bitsOf_length]; simp
  have hinj : ∀ a b : Fin 10, operationalFlagBit a = operationalFlagBit b → a = b := by decide +kernel
  have hlt : ∀ a : Fin 10, operationalFlagBit a < 32 := by decide +kernel
  refine ⟨?_, ?_, hlen _⟩
  · rw [operationalFlagsOf, key, hz _ (hlt i)]
    simp only [Option.map_some, Bool.false_or, Option.some.injEq]
    refine decide_eq_decide.2 ⟨?_, fun h => ⟨i, h, rfl⟩⟩
    rintro ⟨j, hj, e⟩
    rwa [hinj i j e]
  · intro k hk
    have hk32 : k < 32 := by
      rw [← hlen (operationalFlagsOf l)]
      exact (List.getElem?_eq_some_iff.1 hk).1
    rw [operationalFlagsOf, key, hz k hk32] at hk
    simpa using hk

/-- Non-vacuity of C51. -/
example : (operationalFlagsOf [3, 9, 8, 3]).mask.toList = [0x10, 0x80, 0, 1] := by decide +kernel

end Nat20

import Verif.Lemmas.Digest
/-!
# C40 - C45: the native digest context
-/

namespace Nat20

open Fips

/-! ## Digest -/

/-- The arguments of `digest` refer to readable memory: there is a first gather list, `count` of them, and all of them can be read. -/
structure MessageValid (msg : List GatherList) (count : UInt64) : Prop where
  nonempty : msg ≠ []
  enough : count.toNat ≤ msg.length
  lists : ∀ g ∈ msg.take count.toNat, g.Valid

/-- No gather list and no slice announces elements at NULL. -/
def MessageNoNull (msg : List GatherList) (count : UInt64) : Prop :=
  (∀ g ∈ msg.head?, g.NoNullList) ∧ ∀ g ∈ msg.take count.toNat, g.NoNullList ∧ g.NoNullSlice

/-- **C40**.  For every algorithm, every array of gather lists and every output memory that is large enough, the digest is the
SHA-2 hash of the concatenation of all slices; nothing after it is modified and the size becomes the digest size. -/
theorem C40_digest (a : Alg) (msg : List GatherList) (count : UInt64) (hv : MessageValid msg count) (hn : MessageNoNull msg count)
    (hm : (messageOf msg count).length < 2 ^ 61) (d : Bytes) (sz : UInt64) (hsz : a.size ≤ sz.toNat) (hd : sz.toNat ≤ d.length) :
    nat20Ctx.digest (algId a) (some msg) count (some d) (some sz) =
      .ok ⟨.ok, some (sha2 a (messageOf msg count) ++ d.drop a.size), some (UInt64.ofNat a.size)⟩ :=
  nat20_digest_ok a msg count hv.nonempty hv.enough (fun g hg => ⟨hv.lists g hg, hn.2 g hg⟩) hn.1 hm d sz hsz (by omega)

/-- **C40** (split).  Two messages with the same octets have the same digest, however they are cut into slices and lists. -/
theorem C40_split (a : Alg) (m m' : List GatherList) (c c' : UInt64) (hv : MessageValid m c) (hn : MessageNoNull m c) (hv' : MessageValid m' c')
    (hn' : MessageNoNull m' c') (he : messageOf m c = messageOf m' c') (hm : (messageOf m c).length < 2 ^ 61) (d : Bytes) (sz : UInt64)
    (hsz : a.size ≤ sz.toNat) (hd : sz.toNat ≤ d.length) :
    nat20Ctx.digest (algId a) (some m) c (some d) (some sz) = nat20Ctx.digest (algId a) (some m') c' (some d) (some sz) := by
  rw [C40_digest a m c hv hn hm d sz hsz hd, C40_digest a m' c' hv' hn' (he ▸ hm) d sz hsz hd, he]

/-- "abc" in two gather lists with an empty slice at NULL. -/
def abcMessage : List GatherList := [⟨2, some [⟨1, some ⟨[], [0x61]⟩⟩, ⟨0, none⟩]⟩, ⟨0, none⟩, ⟨1, some [⟨2, some ⟨[], [0x62, 0x63]⟩⟩]⟩]

instance (s : Slice) : Decidable s.Valid :=
  decidable_of_iff ((match s.buffer with | none => true | some p => decide (s.size.toNat ≤ p.data.length)) = true) (by
    unfold Slice.Valid
    cases s.buffer with
    | none => simp
    | some p => simp)

instance (g : GatherList) : Decidable g.Valid :=
  decidable_of_iff ((match g.list with | none => true | some l => decide (g.count.toNat ≤ l.length)) = true ∧ ∀ s ∈ g.slices, s.Valid) (by
    constructor
    · rintro ⟨h1, h2⟩
      refine ⟨fun l hl => ?_, h2⟩
      rw [hl] at h1
      exact of_decide_eq_true h1
    · rintro ⟨h1, h2⟩
      refine ⟨?_, h2⟩
      cases h : g.list with
      | none => rfl
      | some l => exact decide_eq_true (h1 l h))

instance (m : List GatherList) (c : UInt64) : Decidable (MessageNoNull m c) := by unfold MessageNoNull; exact inferInstance

example : MessageValid abcMessage 3 ∧ MessageNoNull abcMessage 3 ∧ messageOf abcMessage 3 = [0x61, 0x62, 0x63] :=
  ⟨⟨by decide, by decide, by decide⟩, by decide, by decide⟩

/-- FIPS 180-4 example value: SHA-224("abc"), through the model. -/
example : nat20Ctx.digest 0 (some abcMessage) 3 (some (List.replicate 30 0)) (some 30) = .ok ⟨.ok, some [
    0x23, 0x09, 0x7d, 0x22, 0x34, 0x05, 0xd8, 0x22, 0x86, 0x42, 0xa4, 0x77, 0xbd, 0xa2, 0x55, 0xb3,
    0x2a, 0xad, 0xbc, 0xe4, 0xbd, 0xa0, 0xb3, 0xf7, 0xe3, 0x6c, 0x9d, 0xa7, 0, 0], some 28⟩ := by decide +kernel

/-! ## The error contract of digest -/

/-- The size of the digest of an algorithm, if it is one (`include/nat20/crypto.h` 36-53). -/
def documentedSize (alg : UInt32) : Option UInt64 :=
  if alg = 0 then some 28 else if alg = 1 then some 32 else if alg = 2 then some 48 else if alg = 3 then some 64 else none

/-- The error documented for `digest` (`include/nat20/crypto.h` 185-209), in the order of precedence. -/
def documentedDigestError (ctx : Option Unit) (alg : UInt32) (msg : Option (List GatherList)) (count : UInt64) (out : Option Bytes) (size : Option UInt64) :
    N20Error :=
  match ctx, documentedSize alg, size, out, msg with
  | none, _, _, _, _ => .invalidContext
  | _, none, _, _, _ => .unknownAlgorithm
  | _, _, none, _, _ => .nullSize
  | _, _, _, none, _ => .insufficientBufferSize
  | _, some n, some sz, _, msg =>
    if sz < n then .insufficientBufferSize
    else match msg with
      | none => .nullData
      | some l =>
        if ∃ g ∈ l.take (max 1 count.toNat), ¬ g.NoNullList then .nullList
        else if ∃ g ∈ l.take count.toNat, ¬ g.NoNullSlice then .nullSlice
        else .ok

/-- What holds after a call that returned `r`, for the given arguments: errors leave the output alone and the size too unless
the error is about the size, which is then reported; success writes `n` octets and reports `n`. -/
def CallEffects (alg : UInt32) (out : Option Bytes) (size : Option UInt64) (r : Reply) : Prop :=
  match r.err with
  | .ok => ∃ n d d', documentedSize alg = some n ∧ out = some d ∧ r.out = some (d' ++ d.drop n.toNat) ∧ d'.length = n.toNat ∧ r.size = some n
  | .insufficientBufferSize => r.out = out ∧ r.size = documentedSize alg
  | _ => r.out = out ∧ r.size = size

theorem documentedSize_algId (a : Alg) : documentedSize (algId a) = some (UInt64.ofNat a.size) := by cases a <;> rfl

theorem alg_cases (alg : UInt32) : (∃ a, alg = algId a) ∨ (documentedSize alg = none ∧ digestEnumToSize alg = 0 ∧ ∀ st, digestInit st alg = none) := by
  by_cases h0 : alg = 0
  · exact .inl ⟨.sha224, h0⟩
  by_cases h1 : alg = 1
  · exact .inl ⟨.sha256, h1⟩
  by_cases h2 : alg = 2
  · exact .inl ⟨.sha384, h2⟩
  by_cases h3 : alg = 3
  · exact .inl ⟨.sha512, h3⟩
  right
  simp [documentedSize, digestEnumToSize, digestInit, h0, h1, h2, h3]

/-- `digest` when everything but slices at NULL is in order. -/
theorem nat20_digest_null_slice (a : Alg) (g : GatherList) (gs : List GatherList) (count : UInt64) (hc : count.toNat ≤ (g :: gs).length)
    (hv : ∀ x ∈ (g :: gs).take count.toNat, x.Valid ∧ x.NoNullList) (h0 : g.NoNullList)
    (hs : ∃ x ∈ (g :: gs).take count.toNat, ¬ x.NoNullSlice) (d : Bytes) (sz : UInt64) (hsz : ¬ sz < UInt64.ofNat a.size) :
    nat20Ctx.digest (algId a) (some (g :: gs)) count (some d) (some sz) = .ok ⟨.nullSlice, some d, some sz⟩ := by
  obtain ⟨st, e, r⟩ := digestInit_ok a DigestState.zero
  obtain ⟨st', e'⟩ := (digestLists_ok a count.toNat (g :: gs) st [] r hc hv).1 hs
  have hle : ¬ (digestEnumToSize (algId a) > sz ∨ (some d : Option Bytes) = none) := by
    rw [digestEnumToSize_algId]
    rintro (h | h)
    · exact hsz h
    · simp at h
  have hnl : ¬ (g.count ≠ 0 ∧ g.list = none) := fun h => h.1 (h0 h.2)
  show digestInternal DigestState.zero (algId a) (some (g :: gs)) count (some d) (some sz) = _
  simp only [digestInternal, e, if_neg hle, digestMessage, if_neg hnl, e']
  rfl

/-- The first gather list is in order, and so are the others. -/
theorem later_lists (g : GatherList) (gs : List GatherList) (n : Nat) (hg : g.NoNullList) (h : ∀ x ∈ ((g :: gs).take n).drop 1, x.NoNullList) :
    (¬ ∃ x ∈ (g :: gs).take (max 1 n), ¬ x.NoNullList) ∧ ∀ x ∈ (g :: gs).take n, x.NoNullList := by
  cases n with
  | zero => exact ⟨fun ⟨x, hx, hx'⟩ => by simp at hx; subst hx; exact hx' hg, fun x hx => by simp at hx⟩
  | succ n =>
    have h2 : ∀ x ∈ (g :: gs).take (n + 1), x.NoNullList := by
      intro x hx
      rw [List.take_succ_cons] at hx h
      rcases List.mem_cons.1 hx with rfl | hx
      · exact hg
      · exact h x (by simpa using hx)
    refine ⟨fun ⟨x, hx, hx'⟩ => ?_, h2⟩
    rw [Nat.max_eq_right (by omega)] at hx
    exact hx' (h2 x hx)

/-- **C41** (all but one case).  For every context, algorithm, message, output and size: `digest` returns the documented error
and has the documented effects.  Missing: a list at NULL other than the first one, see `C41_later_null_list`. -/
theorem C41_digest_contract_partial (ctx : Option Unit) (alg : UInt32) (msg : Option (List GatherList)) (count : UInt64) (out : Option Bytes)
    (size : Option UInt64) (hv : ∀ l, msg = some l → MessageValid l count ∧ (messageOf l count).length < 2 ^ 61)
    (ho : ∀ d sz, out = some d → size = some sz → sz.toNat ≤ d.length)
    (hfirst : ∀ l, msg = some l → ∀ g ∈ (l.take count.toNat).drop 1, g.NoNullList) :
    ∃ r, n20Digest ctx alg msg count out size = .ok r ∧ r.err = documentedDigestError ctx alg msg count out size ∧ CallEffects alg out size r := by
  cases ctx with
  | none => exact ⟨_, rfl, rfl, rfl, rfl⟩
  | some u =>
    rcases alg_cases alg with ⟨a, rfl⟩ | ⟨h1, h2, h3⟩
    · obtain ⟨st, e, r⟩ := digestInit_ok a DigestState.zero
      cases size with
      | none =>
        refine ⟨⟨.nullSize, out, none⟩, ?_, ?_, rfl, rfl⟩
        · simp only [n20Digest, digestInternal, e]
        · simp only [documentedDigestError, documentedSize_algId]
      | some sz =>
        cases out with
        | none =>
          refine ⟨⟨.insufficientBufferSize, none, some (UInt64.ofNat a.size)⟩, ?_, ?_, rfl, (documentedSize_algId a).symm⟩
          · simp only [n20Digest, digestInternal, e, digestEnumToSize_algId]
            rw [if_pos (.inr trivial)]
          · simp only [documentedDigestError, documentedSize_algId]
        | some d =>
          by_cases hsz : sz < UInt64.ofNat a.size
          · refine ⟨⟨.insufficientBufferSize, some d, some (UInt64.ofNat a.size)⟩, ?_, ?_, rfl, (documentedSize_algId a).symm⟩
            · simp only [n20Digest, digestInternal, e, digestEnumToSize_algId]
              rw [if_pos (.inl hsz)]
            · simp only [documentedDigestError, documentedSize_algId, if_pos hsz]
          · have hle : ¬ (digestEnumToSize (algId a) > sz ∨ (some d : Option Bytes) = none) := by
              rw [digestEnumToSize_algId]
              rintro (h | h)
              · exact hsz h
              · simp at h
            have hszN : (UInt64.ofNat a.size).toNat = a.size := by rw [UInt64.toNat_ofNat']; exact Nat.mod_eq_of_lt (size_lt a)
            have hszle : a.size ≤ sz.toNat := Nat.le_of_not_lt fun h => hsz (UInt64.lt_iff_toNat_lt.2 (by rw [hszN]; exact h))
            cases msg with
            | none =>
              refine ⟨⟨.nullData, some d, some sz⟩, ?_, ?_, rfl, rfl⟩
              · simp only [n20Digest, digestInternal, e, if_neg hle, digestMessage]
              · simp only [documentedDigestError, documentedSize_algId, if_neg hsz]
            | some l =>
              obtain ⟨hmv, hml⟩ := hv l rfl
              cases l with
              | nil => exact absurd rfl hmv.nonempty
              | cons g gs =>
                by_cases hg : g.NoNullList
                · obtain ⟨hall, hnl⟩ := later_lists g gs count.toNat hg (hfirst _ rfl)
                  by_cases hs : ∃ x ∈ (g :: gs).take count.toNat, ¬ x.NoNullSlice
                  · refine ⟨⟨.nullSlice, some d, some sz⟩, ?_, ?_, rfl, rfl⟩
                    · exact nat20_digest_null_slice a g gs count hmv.enough (fun x hx => ⟨hmv.lists x hx, hnl x hx⟩) hg hs d sz hsz
                    · simp only [documentedDigestError, documentedSize_algId, if_neg hsz, if_neg hall, if_pos hs]
                  · refine ⟨_, C40_digest a (g :: gs) count hmv ⟨fun x hx => by simp at hx; subst hx; exact hg, fun x hx => ⟨hnl x hx, ?_⟩⟩ hml d sz hszle (ho d sz rfl rfl), ?_, ?_⟩
                    · exact Classical.byContradiction fun h => hs ⟨x, hx, h⟩
                    · simp only [documentedDigestError, documentedSize_algId, if_neg hsz, if_neg hall, if_neg hs]
                    · exact ⟨_, d, _, documentedSize_algId a, rfl, by rw [hszN], by rw [hszN, sha2_length], rfl⟩
                · have hall : ∃ x ∈ (g :: gs).take (max 1 count.toNat), ¬ x.NoNullList := by
                    refine ⟨g, ?_, hg⟩
                    have : max 1 count.toNat = (max 1 count.toNat - 1) + 1 := by omega
                    rw [this, List.take_succ_cons]
                    simp
                  have hnl : g.count ≠ 0 ∧ g.list = none := by
                    unfold GatherList.NoNullList at hg
                    exact ⟨fun h => hg fun _ => h, Classical.byContradiction fun h => hg fun h' => absurd h' h⟩
                  refine ⟨⟨.nullList, some d, some sz⟩, ?_, ?_, rfl, rfl⟩
                  · simp only [n20Digest, digestInternal, e, if_neg hle, digestMessage, if_pos hnl]
                  · simp only [documentedDigestError, documentedSize_algId, if_neg hsz, if_pos hall]
    · refine ⟨⟨.unknownAlgorithm, out, size⟩, ?_, ?_, rfl, rfl⟩
      · simp only [n20Digest, digestInternal, h3]
      · simp only [documentedDigestError, h1]

theorem digestLists_null (a : Alg) (before after : List GatherList) (hb : ∀ g ∈ before, g.Valid ∧ g.NoNullList ∧ g.NoNullSlice) (n : UInt64) (hn : n ≠ 0) (k : Nat)
    (hk : before.length < k) (st : DigestState) (msg : Bytes) (r : DRep a st msg) : digestLists (algId a) k (before ++ ⟨n, none⟩ :: after) st = .error .nullDeref := by
  induction before generalizing k st msg with
  | nil =>
    cases k with
    | zero => simp at hk
    | succ k =>
      rw [List.nil_append, digestLists]
      simp only [digestGather, if_neg hn]
      rfl
  | cons g t ih =>
    cases k with
    | zero => simp at hk
    | succ k =>
      have hg := hb g (by simp)
      obtain ⟨st', e', r'⟩ := (digestGather_ok a g hg.1 hg.2.1 st msg r).2 hg.2.2
      rw [List.cons_append, digestLists, e']
      exact ih (fun x hx => hb x (by simp [hx])) k (by simp only [List.length_cons] at hk; omega) st' _ r'

/-- **C41** (violated).  If a gather list other than the first one has elements at NULL, the code dereferences NULL instead of
returning the documented error.  This is so for every message, wherever the list is. -/
theorem C41_later_null_list (a : Alg) (g : GatherList) (before after : List GatherList) (hb : ∀ x ∈ g :: before, x.Valid ∧ x.NoNullList ∧ x.NoNullSlice)
    (n : UInt64) (hn : n ≠ 0) (count : UInt64) (hc : before.length + 1 < count.toNat) (d : Bytes) (sz : UInt64) (hsz : ¬ sz < UInt64.ofNat a.size) :
    nat20Ctx.digest (algId a) (some (g :: before ++ ⟨n, none⟩ :: after)) count (some d) (some sz) = .error .nullDeref ∧
    documentedDigestError (some ()) (algId a) (some (g :: before ++ ⟨n, none⟩ :: after)) count (some d) (some sz) = .nullList := by
  constructor
  · obtain ⟨st, e, r⟩ := digestInit_ok a DigestState.zero
    have hle : ¬ (digestEnumToSize (algId a) > sz ∨ (some d : Option Bytes) = none) := by
      rw [digestEnumToSize_algId]
      rintro (h | h)
      · exact hsz h
      · simp at h
    have hnl : ¬ (g.count ≠ 0 ∧ g.list = none) := fun h => h.1 ((hb g (by simp)).2.1 h.2)
    show digestInternal DigestState.zero (algId a) (some (g :: before ++ ⟨n, none⟩ :: after)) count (some d) (some sz) = _
    simp only [digestInternal, e, if_neg hle, List.cons_append, digestMessage, if_neg hnl]
    rw [← List.cons_append, digestLists_null a (g :: before) after hb n hn count.toNat (by simpa using hc) st [] r]
    rfl
  · have h : ∃ x ∈ (g :: before ++ ⟨n, none⟩ :: after).take (max 1 count.toNat), ¬ GatherList.NoNullList x := by
      refine ⟨⟨n, none⟩, ?_, fun h => hn (h rfl)⟩
      rw [List.mem_take_iff_getElem]
      refine ⟨before.length + 1, ?_, ?_⟩
      · simp only [List.length_append, List.length_cons]
        omega
      · simp
    simp only [documentedDigestError, documentedSize_algId, if_neg hsz, if_pos h]

/-- Non-vacuity: three lists of which the second is at NULL. -/
example : nat20Ctx.digest 1 (some [⟨0, none⟩, ⟨1, none⟩, ⟨0, none⟩]) 3 (some (List.replicate 32 0)) (some 32) = .error .nullDeref := by decide +kernel

example : n20Digest (some ()) 7 none 0 none none = .ok ⟨.unknownAlgorithm, none, none⟩ ∧
    n20Digest (some ()) 1 none 0 none (some 0) = .ok ⟨.insufficientBufferSize, none, some 32⟩ ∧
    n20Digest (some ()) 1 (some [⟨1, none⟩]) 1 (some (List.replicate 40 7)) (some 40) = .ok ⟨.nullList, some (List.replicate 40 7), some 40⟩ := by
  decide +kernel

/-! ## HMAC -/

/-- **C42**.  For every algorithm, key, message and output memory that is large enough, the result is the RFC 2104 HMAC.
Missing: a key of length 0 at NULL, see `C42_empty_null_key`. -/
theorem C42_hmac_partial (a : Alg) (key : Slice) (hv : key.Valid) (hb : key.buffer ≠ none) (hkl : key.bytes.length < 2 ^ 61)
    (g : GatherList) (hg : g.Valid) (hl : g.NoNullList) (hs : g.NoNullSlice) (hm : a.block + g.bytes.length < 2 ^ 61)
    (d : Bytes) (sz : UInt64) (hsz : a.size ≤ sz.toNat) (hd : sz.toNat ≤ d.length) :
    nat20Ctx.hmac (algId a) key (some g) (some d) (some sz) =
      .ok ⟨.ok, some (hmac a key.bytes g.bytes ++ d.drop a.size), some (UInt64.ofNat a.size)⟩ :=
  nat20_hmac_ok a key hv hb hkl g hg hl hs hm d sz hsz (by omega)

/-- **C42** (violated).  A key of length 0 at NULL is passed to `memcpy`, which is undefined. -/
theorem C42_empty_null_key (a : Alg) (msg : Option GatherList) (d : Bytes) (sz : UInt64) (hsz : ¬ sz < UInt64.ofNat a.size) :
    nat20Ctx.hmac (algId a) Slice.null msg (some d) (some sz) = .error .nullMemcpy := by
  have h1 : digestEnumToSize (algId a) ≠ 0 := by cases a <;> decide
  have h2 : ¬ (Slice.null.buffer = none ∧ Slice.null.size ≠ 0) := fun h => h.2 rfl
  have h3 : ¬ ((some d : Option Bytes) = none ∨ sz < digestEnumToSize (algId a)) := by
    rw [digestEnumToSize_algId]
    rintro (h | h)
    · simp at h
    · exact hsz h
  show hmacInternal nat20Ctx.digest (List.replicate 128 0) (List.replicate 64 0) (algId a) Slice.null msg (some d) (some sz) = _
  simp only [hmacInternal, if_neg h1, if_neg h2, if_neg h3]
  have h4 : ¬ Slice.null.size > hmacBlock (algId a) := by cases a <;> decide
  simp only [hmacKey, if_neg h4]
  rfl

/-- The error documented for `hmac` (`include/nat20/crypto.h` 271-300), in the order of precedence. -/
def documentedHmacError (ctx : Option Unit) (alg : UInt32) (key : Slice) (msg : Option GatherList) (out : Option Bytes) (size : Option UInt64) : N20Error :=
  match ctx, documentedSize alg, size with
  | none, _, _ => .invalidContext
  | _, none, _ => .unknownAlgorithm
  | _, _, none => .nullSize
  | _, some n, some sz =>
    if key.buffer = none ∧ key.size ≠ 0 then .nullSliceKey
    else if out = none ∨ sz < n then .insufficientBufferSize
    else match msg with
      | none => .nullData
      | some g => if ¬ g.NoNullList then .nullList else if ¬ g.NoNullSlice then .nullSlice else .ok

theorem hmacXor_length (a : Alg) (x : UInt8) (K : Bytes) (h : K.length = 128) : (hmacXor (hmacBlock (algId a)) x K).length = 128 := by
  unfold hmacXor
  have := block_le_128 a
  rw [block_toNat, List.length_append, List.length_map, List.length_take, List.length_drop]
  omega

/-- **C43**.  For every context, algorithm, key, message, output and size: `hmac` returns the documented error and has the
documented effects.  Missing: a key of length 0 at NULL, see `C42_empty_null_key`. -/
theorem C43_hmac_contract_partial (ctx : Option Unit) (alg : UInt32) (key : Slice) (msg : Option GatherList) (out : Option Bytes)
    (size : Option UInt64) (hk : key.Valid) (hkl : key.bytes.length < 2 ^ 61) (hk0 : key.buffer = none → key.size ≠ 0)
    (hv : ∀ g, msg = some g → g.Valid ∧ 128 + g.bytes.length < 2 ^ 61)
    (ho : ∀ d sz, out = some d → size = some sz → sz.toNat ≤ d.length) :
    ∃ r, n20Hmac (ctx.map fun _ => nat20Ctx.digest) alg key msg out size = .ok r ∧ r.err = documentedHmacError ctx alg key msg out size ∧
      CallEffects alg out size r := by
  cases ctx with
  | none => exact ⟨_, rfl, rfl, rfl, rfl⟩
  | some u =>
    show ∃ r, hmacInternal nat20Ctx.digest (List.replicate 128 0) (List.replicate 64 0) alg key msg out size = .ok r ∧ _
    rcases alg_cases alg with ⟨a, rfl⟩ | ⟨h1, h2, h3⟩
    · have h1 : digestEnumToSize (algId a) ≠ 0 := by cases a <;> decide
      cases size with
      | none =>
        refine ⟨⟨.nullSize, out, none⟩, ?_, ?_, rfl, rfl⟩
        · simp only [hmacInternal, if_neg h1]
        · simp only [documentedHmacError, documentedSize_algId]
      | some sz =>
        by_cases hkn : key.buffer = none ∧ key.size ≠ 0
        · refine ⟨⟨.nullSliceKey, out, some sz⟩, ?_, ?_, rfl, rfl⟩
          · simp only [hmacInternal, if_neg h1, if_pos hkn]
          · simp only [documentedHmacError, documentedSize_algId, if_pos hkn]
        · by_cases hsz : out = none ∨ sz < UInt64.ofNat a.size
          · refine ⟨⟨.insufficientBufferSize, out, some (UInt64.ofNat a.size)⟩, ?_, ?_, rfl, (documentedSize_algId a).symm⟩
            · simp only [hmacInternal, if_neg h1, if_neg hkn]
              rw [digestEnumToSize_algId, if_pos hsz]
            · simp only [documentedHmacError, documentedSize_algId, if_neg hkn, if_pos hsz]
          · have hkb : key.buffer ≠ none := fun h => hkn ⟨h, hk0 h⟩
            have hszN : (UInt64.ofNat a.size).toNat = a.size := by rw [UInt64.toNat_ofNat']; exact Nat.mod_eq_of_lt (size_lt a)
            have hszle : a.size ≤ sz.toNat :=
              Nat.le_of_not_lt fun h => hsz (.inr (UInt64.lt_iff_toNat_lt.2 (by rw [hszN]; exact h)))
            have hkey := hmacKey_ok a key hk hkb hkl
            have hbody : hmacInternal nat20Ctx.digest (List.replicate 128 0) (List.replicate 64 0) (algId a) key msg out (some sz) =
                hmacBody nat20Ctx.digest (algId a) (hmacBlock (algId a)) (UInt64.ofNat a.size)
                  (hmacKeyBlock a key.bytes ++ List.replicate (128 - a.block) 0) (List.replicate 64 0) msg out sz := by
              simp only [hmacInternal, if_neg h1, if_neg hkn, hkey]
              rw [digestEnumToSize_algId, if_neg hsz]
              rfl
            cases msg with
            | none =>
              refine ⟨⟨.nullData, out, some sz⟩, ?_, ?_, rfl, rfl⟩
              · rw [hbody]; rfl
              · simp only [documentedHmacError, documentedSize_algId, if_neg hkn, if_neg hsz]
            | some g =>
              obtain ⟨hgv, hgl⟩ := hv g rfl
              by_cases hl : g.NoNullList
              · have h4 : ¬ (g.count ≠ 0 ∧ g.list = none) := fun h => h.1 (hl h.2)
                by_cases hs : g.NoNullSlice
                · cases out with
                  | none => exact absurd (.inl rfl) hsz
                  | some d =>
                    refine ⟨_, C42_hmac_partial a key hk hkb hkl g hgv hl hs (by have := block_le_128 a; omega) d sz hszle (ho d sz rfl rfl), ?_, ?_⟩
                    · simp only [documentedHmacError, documentedSize_algId, if_neg hkn, if_neg hsz, if_neg (not_not_intro hl), if_neg (not_not_intro hs)]
                    · exact ⟨_, d, _, documentedSize_algId a, rfl, by rw [hszN], by rw [hszN, hmac_length], rfl⟩
                · refine ⟨⟨.nullSlice, out, some sz⟩, ?_, ?_, rfl, rfl⟩
                  · rw [hbody]
                    simp only [hmacBody, if_neg h4]
                    have hbl := block_toNat a
                    have hb128 := block_le_128 a
                    have hKl : (hmacXor (hmacBlock (algId a)) 0x36 (hmacKeyBlock a key.bytes ++ List.replicate (128 - a.block) 0)).length = 128 :=
                      hmacXor_length a _ _ (by rw [List.length_append, hmacKeyBlock_length, List.length_replicate]; omega)
                    rw [nat20_digest_null_slice a _ [g] 2 (by simp) (by
                      intro x hx
                      simp at hx
                      rcases hx with rfl | rfl
                      · refine ⟨⟨fun l hl => ?_, fun s hs => ?_⟩, fun h => by simp at h⟩
                        · simp at hl; subst hl; simp
                        · simp [GatherList.slices] at hs; subst hs; exact localSlice_valid _ _ (by omega)
                      · exact ⟨hgv, hl⟩) (fun h => by simp at h) ⟨g, by simp, hs⟩ (List.replicate 64 0) _ (fun h => by
                        have := UInt64.lt_iff_toNat_lt.1 h
                        omega)]
                    rfl
                  · simp only [documentedHmacError, documentedSize_algId, if_neg hkn, if_neg hsz, if_neg (not_not_intro hl), if_pos hs]
              · have h4 : g.count ≠ 0 ∧ g.list = none := by
                  unfold GatherList.NoNullList at hl
                  exact ⟨fun h => hl fun _ => h, Classical.byContradiction fun h => hl fun h' => absurd h' h⟩
                refine ⟨⟨.nullList, out, some sz⟩, ?_, ?_, rfl, rfl⟩
                · rw [hbody]
                  simp only [hmacBody, if_pos h4]
                · simp only [documentedHmacError, documentedSize_algId, if_neg hkn, if_neg hsz, if_pos hl]
    · refine ⟨⟨.unknownAlgorithm, out, size⟩, ?_, ?_, rfl, rfl⟩
      · simp only [hmacInternal, if_pos h2]
      · simp only [documentedHmacError, h1]

/-- RFC 4231 test case 2: key "Jefe", data "what do ya want for nothing?", HMAC-SHA-256, through the model. -/
example : nat20Ctx.hmac 1 ⟨4, some ⟨[], [0x4a, 0x65, 0x66, 0x65]⟩⟩ (some ⟨1, some [⟨28, some ⟨[], [
    0x77, 0x68, 0x61, 0x74, 0x20, 0x64, 0x6f, 0x20, 0x79, 0x61, 0x20, 0x77, 0x61, 0x6e, 0x74, 0x20, 0x66, 0x6f, 0x72, 0x20, 0x6e, 0x6f,
    0x74, 0x68, 0x69, 0x6e, 0x67, 0x3f]⟩⟩]⟩) (some (List.replicate 32 0)) (some 32) = .ok ⟨.ok, some [
    0x5b, 0xdc, 0xc1, 0x46, 0xbf, 0x60, 0x75, 0x4e, 0x6a, 0x04, 0x24, 0x26, 0x08, 0x95, 0x75, 0xc7, 0x5a, 0x00, 0x3f, 0x08, 0x9d, 0x27,
    0x39, 0x83, 0x9d, 0xec, 0x58, 0xb9, 0x64, 0xec, 0x38, 0x43], some 32⟩ := by decide +kernel

/-! ## HKDF -/

theorem ceil_mul (L n : Nat) (h : 0 < n) : L ≤ (L + n - 1) / n * n := by
  have h1 := Nat.div_add_mod (L + n - 1) n
  have h2 := Nat.mod_lt (L + n - 1) h
  rw [Nat.mul_comm] at h1
  omega

theorem hkdfExtract_eq (a : Alg) (salt ikm : Bytes) : hkdfExtract a salt ikm = hmac a salt ikm := by
  unfold hkdfExtract
  split
  · next h =>
    subst h
    have : hmacKeyBlock a (List.replicate a.size 0) = hmacKeyBlock a [] := by
      have := size_le_block a
      unfold hmacKeyBlock
      simp only [List.length_replicate, List.length_nil]
      rw [if_neg (by omega), if_neg (by omega), List.replicate_append_replicate, List.nil_append, List.length_replicate, List.length_nil]
      congr 1
      omega
    unfold hmac
    simp only [this]
  · rfl

theorem oneList_ok (s : Slice) (hv : s.Valid) (hn : s.buffer = none → s.size = 0) :
    (⟨1, some [s]⟩ : GatherList).Valid ∧ (⟨1, some [s]⟩ : GatherList).NoNullList ∧ (⟨1, some [s]⟩ : GatherList).NoNullSlice ∧
    (⟨1, some [s]⟩ : GatherList).bytes = s.bytes := by
  have hsl : (⟨1, some [s]⟩ : GatherList).slices = [s] := rfl
  refine ⟨⟨fun l hl => ?_, fun x hx => ?_⟩, fun h => by simp at h, fun x hx hb => ?_, ?_⟩
  · simp only [Option.some.injEq] at hl; subst hl; simp
  · rw [hsl] at hx; simp at hx; subst hx; exact hv
  · rw [hsl] at hx; simp at hx; subst hx; exact hn hb
  · unfold GatherList.bytes; rw [hsl]; simp

/-- **C44** (extract).  The result is the RFC 5869 pseudorandom key for every salt (an empty one too) and every input key
material.  Missing: an empty salt at NULL, see `C44_null_salt`. -/
theorem C44_extract_partial (a : Alg) (ikm salt : Slice) (hi : ikm.Valid) (hin : ikm.buffer = none → ikm.size = 0) (hs : salt.Valid)
    (hsb : salt.buffer ≠ none) (hsl : salt.bytes.length < 2 ^ 61) (hil : 128 + ikm.bytes.length < 2 ^ 61)
    (d : Bytes) (sz : UInt64) (hsz : a.size ≤ sz.toNat) (hd : sz.toNat ≤ d.length) :
    nat20Ctx.hkdfExtract (algId a) ikm salt (some d) (some sz) =
      .ok ⟨.ok, some (hkdfExtract a salt.bytes ikm.bytes ++ d.drop a.size), some (UInt64.ofNat a.size)⟩ := by
  have h1 : digestEnumToSize (algId a) ≠ 0 := by cases a <;> decide
  have h2 : ¬ (ikm.buffer = none ∧ ikm.size ≠ 0) := fun h => h.2 (hin h.1)
  have h3 : ¬ (salt.buffer = none ∧ salt.size ≠ 0) := fun h => hsb h.1
  have h4 : ¬ (sz < digestEnumToSize (algId a) ∨ (some d : Option Bytes) = none) := by
    rintro (h | h)
    · have := UInt64.lt_iff_toNat_lt.1 h
      rw [digestEnumToSize_toNat] at this
      omega
    · simp at h
  obtain ⟨g1, g2, g3, g4⟩ := oneList_ok ikm hi hin
  show n20HkdfExtract (some nat20Ctx.hmac) (algId a) ikm salt (some d) (some sz) = _
  simp only [n20HkdfExtract, if_neg h1, if_neg h2, if_neg h3, if_neg h4]
  rw [C42_hmac_partial a salt hs hsb hsl _ g1 g2 g3 (by rw [g4]; have := block_le_128 a; omega) d sz hsz hd, g4, hkdfExtract_eq]

/-- **C44** (expand).  For every pseudorandom key, info and every length RFC 5869 allows, the output is the one of RFC 5869,
and nothing after it is modified. -/
theorem C44_expand_partial (a : Alg) (prk info : Slice) (hp : prk.Valid) (hpb : prk.buffer ≠ none) (hpl : prk.bytes.length < 2 ^ 61)
    (hi : info.Valid) (hin : info.buffer = none → info.size = 0) (hil : 256 + info.bytes.length < 2 ^ 61) (L : UInt64)
    (hL : L.toNat ≤ 255 * a.size) (d : Bytes) (hd : L.toNat ≤ d.length) :
    ∃ okm, hkdfExpand a prk.bytes info.bytes L.toNat = some okm ∧ okm.length = L.toNat ∧
      nat20Ctx.hkdfExpand (algId a) prk info L (some d) = .ok (.ok, some (okm ++ d.drop L.toNat)) := by
  refine ⟨_, if_pos hL, ?_, nat20_expand_ok a prk info hp hpb hpl hi hin hil L d hd⟩
  rw [List.length_take, hkdfBlocks_length]
  exact Nat.min_eq_left (ceil_mul _ _ (size_pos a))

/-- **C44** (violated).  RFC 5869 has no output longer than 255 digests; the code does not reject it but reports success, with
blocks made from a counter that starts again at 0. -/
theorem C44_too_long (a : Alg) (prk info : Slice) (hp : prk.Valid) (hpb : prk.buffer ≠ none) (hpl : prk.bytes.length < 2 ^ 61)
    (hi : info.Valid) (hin : info.buffer = none → info.size = 0) (hil : 256 + info.bytes.length < 2 ^ 61) (L : UInt64)
    (hL : 255 * a.size < L.toNat) (d : Bytes) (hd : L.toNat ≤ d.length) :
    hkdfExpand a prk.bytes info.bytes L.toNat = none ∧
    ∃ out, nat20Ctx.hkdfExpand (algId a) prk info L (some d) = .ok (.ok, some out) ∧
      (∀ j, j < a.size → 255 * a.size + j < L.toNat → out[255 * a.size + j]? =
        (hmac a prk.bytes (hkdfT a prk.bytes info.bytes 255 ++ info.bytes ++ [0]))[j]?) := by
  refine ⟨if_neg (by omega), _, nat20_expand_ok a prk info hp hpb hpl hi hin hil L d hd, fun j hj hjL => ?_⟩
  have hsp := size_pos a
  have hN : 256 ≤ (L.toNat + a.size - 1) / a.size := by
    rw [Nat.le_div_iff_mul_le hsp]
    omega
  have hsplit : ∀ n, 256 ≤ n → ∃ rest, hkdfBlocks a prk.bytes info.bytes n = hkdfBlocks a prk.bytes info.bytes 256 ++ rest := by
    intro n hn
    induction n with
    | zero => omega
    | succ n ih =>
      by_cases h : n + 1 = 256
      · exact ⟨[], by rw [h]; simp⟩
      · obtain ⟨r, e⟩ := ih (by omega)
        exact ⟨r ++ hkdfT a prk.bytes info.bytes (n + 1), by rw [hkdfBlocks_succ, e, List.append_assoc]⟩
  obtain ⟨rest, e⟩ := hsplit _ hN
  have hlen : (hkdfBlocks a prk.bytes info.bytes ((L.toNat + a.size - 1) / a.size)).length = (L.toNat + a.size - 1) / a.size * a.size := hkdfBlocks_length _ _ _ _
  have h255 := hkdfBlocks_length a prk.bytes info.bytes 255
  have hT := hkdfT_length a prk.bytes info.bytes 255
  have hge : 256 * a.size ≤ (L.toNat + a.size - 1) / a.size * a.size := Nat.mul_le_mul_right _ hN
  have h256 : 256 * a.size = 255 * a.size + a.size := by omega
  rw [List.getElem?_append_left (by rw [List.length_take, hlen]; omega), List.getElem?_take_of_lt hjL, e,
    hkdfBlocks_succ a prk.bytes info.bytes 255, List.append_assoc, List.getElem?_append_right (by omega), h255, Nat.add_sub_cancel_left,
    List.getElem?_append_left (by omega)]
  rfl

/-- **C44** (prefix).  A shorter output is a prefix of a longer one. -/
theorem C44_prefix (a : Alg) (prk info : Bytes) (L L' : Nat) (h : L ≤ L') (x y : Bytes) (hx : hkdfExpand a prk info L = some x)
    (hy : hkdfExpand a prk info L' = some y) : x = y.take L := by
  unfold hkdfExpand at hx hy
  split at hx <;> simp at hx
  split at hy <;> simp at hy
  subst hx hy
  have hsp := size_pos a
  rw [List.take_take, Nat.min_eq_left h]
  have hNN : (L + a.size - 1) / a.size ≤ (L' + a.size - 1) / a.size := Nat.div_le_div_right (by omega)
  have hsplit : ∀ n k, ∃ rest, hkdfBlocks a prk info (n + k) = hkdfBlocks a prk info n ++ rest := by
    intro n k
    induction k with
    | zero => exact ⟨[], by simp⟩
    | succ k ih =>
      obtain ⟨r, e⟩ := ih
      exact ⟨r ++ hkdfT a prk info (n + k + 1), by rw [← Nat.add_assoc, hkdfBlocks_succ, e, List.append_assoc]⟩
  obtain ⟨r, e⟩ := hsplit ((L + a.size - 1) / a.size) ((L' + a.size - 1) / a.size - (L + a.size - 1) / a.size)
  rw [Nat.add_sub_cancel' hNN] at e
  rw [e, List.take_append_of_le_length]
  rw [hkdfBlocks_length]
  exact ceil_mul _ _ hsp

theorem hkdf_run (a : Alg) (ikm salt info : Slice) (hi : ikm.Valid) (hin : ikm.buffer = none → ikm.size = 0) (hs : salt.Valid)
    (hsb : salt.buffer ≠ none) (hsl : salt.bytes.length < 2 ^ 61) (hil : 128 + ikm.bytes.length < 2 ^ 61)
    (hfn : info.buffer = none → info.size = 0) (L : UInt64) (out : Option Bytes) :
    ∃ prk : Slice, prk.Valid ∧ prk.buffer ≠ none ∧ prk.bytes = hkdfExtract a salt.bytes ikm.bytes ∧
      nat20Ctx.hkdf (algId a) ikm salt info L out = nat20Ctx.hkdfExpand (algId a) prk info L out := by
  have h1 : digestEnumToSize (algId a) ≠ 0 := by cases a <;> decide
  have h2 : ¬ (ikm.buffer = none ∧ ikm.size ≠ 0) := fun h => h.2 (hin h.1)
  have h3 : ¬ (salt.buffer = none ∧ salt.size ≠ 0) := fun h => hsb h.1
  have h4 : ¬ (info.buffer = none ∧ info.size ≠ 0) := fun h => h.2 (hfn h.1)
  have hszN : (UInt64.ofNat a.size).toNat = a.size := by rw [UInt64.toNat_ofNat']; exact Nat.mod_eq_of_lt (size_lt a)
  have h64 := size_le_64 a
  have hlen : (hkdfExtract a salt.bytes ikm.bytes).length = a.size := by unfold hkdfExtract; exact hmac_length _ _ _
  refine ⟨⟨UInt64.ofNat a.size, localPtr (hkdfExtract a salt.bytes ikm.bytes ++ (List.replicate 64 0).drop a.size)⟩, ?_, ?_, ?_, ?_⟩
  · exact localSlice_valid _ _ (by rw [List.length_append, hlen, hszN]; omega)
  · simp [localPtr]
  · exact localSlice_bytes _ _ _ (by rw [hlen, hszN])
  · show n20Hkdf (some (nat20Ctx.hkdfExtract, nat20Ctx.hkdfExpand)) (algId a) ikm salt info L out = _
    simp only [n20Hkdf, if_neg h1, if_neg h2, if_neg h3, if_neg h4]
    rw [C44_extract_partial a ikm salt hi hin hs hsb hsl hil (List.replicate 64 0) (digestEnumToSize (algId a))
      (by rw [digestEnumToSize_toNat]; exact Nat.le_refl _) (by rw [digestEnumToSize_toNat]; simp; omega)]
    rfl

/-- **C44** (HKDF).  The composition of both, for every input and every length RFC 5869 allows. -/
theorem C44_hkdf_partial (a : Alg) (ikm salt info : Slice) (hi : ikm.Valid) (hin : ikm.buffer = none → ikm.size = 0) (hs : salt.Valid)
    (hsb : salt.buffer ≠ none) (hsl : salt.bytes.length < 2 ^ 61) (hil : 128 + ikm.bytes.length < 2 ^ 61)
    (hf : info.Valid) (hfn : info.buffer = none → info.size = 0) (hfl : 256 + info.bytes.length < 2 ^ 61)
    (L : UInt64) (hL : L.toNat ≤ 255 * a.size) (d : Bytes) (hd : L.toNat ≤ d.length) :
    ∃ okm, hkdfExpand a (hkdfExtract a salt.bytes ikm.bytes) info.bytes L.toNat = some okm ∧ okm.length = L.toNat ∧
      nat20Ctx.hkdf (algId a) ikm salt info L (some d) = .ok (.ok, some (okm ++ d.drop L.toNat)) := by
  obtain ⟨prk, h1, h2, h3, h4⟩ := hkdf_run a ikm salt info hi hin hs hsb hsl hil hfn L (some d)
  obtain ⟨okm, e1, e2, e3⟩ := C44_expand_partial a prk info h1 h2
    (by rw [h3, hkdfExtract_eq, hmac_length]; have := size_le_64 a; omega) hf hfn hfl L hL d hd
  exact ⟨okm, h3 ▸ e1, e2, h4 ▸ e3⟩

/-- **C44** (violated).  Extract without a salt, given as a slice of length 0 at NULL, passes NULL to `memcpy`, which is undefined. -/
theorem C44_null_salt (a : Alg) (ikm : Slice) (hin : ikm.buffer = none → ikm.size = 0) (d : Bytes) (sz : UInt64) (hsz : ¬ sz < UInt64.ofNat a.size) :
    nat20Ctx.hkdfExtract (algId a) ikm Slice.null (some d) (some sz) = .error .nullMemcpy := by
  have h1 : digestEnumToSize (algId a) ≠ 0 := by cases a <;> decide
  have h2 : ¬ (ikm.buffer = none ∧ ikm.size ≠ 0) := fun h => h.2 (hin h.1)
  have h3 : ¬ (Slice.null.buffer = none ∧ Slice.null.size ≠ 0) := fun h => h.2 rfl
  have h4 : ¬ (sz < digestEnumToSize (algId a) ∨ (some d : Option Bytes) = none) := by
    rw [digestEnumToSize_algId]
    rintro (h | h)
    · exact hsz h
    · simp at h
  show n20HkdfExtract (some nat20Ctx.hmac) (algId a) ikm Slice.null (some d) (some sz) = _
  simp only [n20HkdfExtract, if_neg h1, if_neg h2, if_neg h3, if_neg h4]
  exact C42_empty_null_key a _ d sz hsz

/-- Arguments that meet the hypotheses on slices and messages: a salt, no info, and a message. -/
example : (⟨2, some ⟨[], [1, 2, 3]⟩⟩ : Slice).Valid ∧ (⟨2, some ⟨[], [1, 2, 3]⟩⟩ : Slice).bytes = [1, 2] ∧ Slice.null.Valid ∧
    (⟨1, some [⟨2, some ⟨[], [1, 2, 3]⟩⟩]⟩ : GatherList).Valid ∧ (⟨1, some [⟨2, some ⟨[], [1, 2, 3]⟩⟩]⟩ : GatherList).NoNullList ∧
    (⟨1, some [⟨2, some ⟨[], [1, 2, 3]⟩⟩]⟩ : GatherList).NoNullSlice := by decide

/-- RFC 5869 test case 1 (SHA-256), through the model. -/
example : nat20Ctx.hkdf 1 ⟨22, some ⟨[], List.replicate 22 0x0b⟩⟩ ⟨13, some ⟨[], (List.range 13).map UInt8.ofNat⟩⟩
    ⟨10, some ⟨[], (List.range 10).map fun i => 0xf0 + UInt8.ofNat i⟩⟩ 42 (some (List.replicate 43 0)) = .ok (.ok, some [
    0x3c, 0xb2, 0x5f, 0x25, 0xfa, 0xac, 0xd5, 0x7a, 0x90, 0x43, 0x4f, 0x64, 0xd0, 0x36, 0x2f, 0x2a, 0x2d, 0x2d, 0x0a, 0x90, 0xcf,
    0x1a, 0x5a, 0x4c, 0x5d, 0xb0, 0x2d, 0x56, 0xec, 0xc4, 0xc5, 0xbf, 0x34, 0x00, 0x72, 0x08, 0xd5, 0xb8, 0x87, 0x18, 0x58, 0x65, 0]) := by
  decide +kernel

/-! ## The error contract of HKDF -/

/-- The errors documented for `hkdf_extract` (`include/nat20/crypto.h` 386-406) and, for the size pointer, by analogy with `digest`. -/
def documentedExtractError (ctx : Option Unit) (alg : UInt32) (ikm salt : Slice) (out : Option Bytes) (size : Option UInt64) : N20Error :=
  match ctx, documentedSize alg with
  | none, _ => .invalidContext
  | _, none => .unknownAlgorithm
  | _, some n =>
    if ikm.buffer = none ∧ ikm.size ≠ 0 then .nullSliceIkm
    else if salt.buffer = none ∧ salt.size ≠ 0 then .nullSliceSalt
    else match size with
      | none => .nullSize
      | some sz => if out = none ∨ sz < n then .insufficientBufferSize else .ok

/-- The errors documented for `hkdf_expand` (`include/nat20/crypto.h` 433-449). -/
def documentedExpandError (ctx : Option Unit) (alg : UInt32) (prk info : Slice) (L : UInt64) (out : Option Bytes) : N20Error :=
  if ctx = none then .invalidContext
  else if documentedSize alg = none then .unknownAlgorithm
  else if prk.buffer = none ∧ prk.size ≠ 0 then .nullSlicePrk
  else if info.buffer = none ∧ info.size ≠ 0 then .nullSliceInfo
  else if out = none ∧ L ≠ 0 then .insufficientBufferSize
  else .ok

/-- The errors documented for `hkdf` (`include/nat20/crypto.h` 333-353). -/
def documentedHkdfError (ctx : Option Unit) (alg : UInt32) (ikm salt info : Slice) (L : UInt64) (out : Option Bytes) : N20Error :=
  if ctx = none then .invalidContext
  else if documentedSize alg = none then .unknownAlgorithm
  else if ikm.buffer = none ∧ ikm.size ≠ 0 then .nullSliceIkm
  else if salt.buffer = none ∧ salt.size ≠ 0 then .nullSliceSalt
  else if info.buffer = none ∧ info.size ≠ 0 then .nullSliceInfo
  else if out = none ∧ L ≠ 0 then .insufficientBufferSize
  else .ok

/-- Errors leave the output alone, success changes at most the first `L` octets; no output memory appears or disappears. -/
def ExpandEffects (L : UInt64) (out : Option Bytes) (r : N20Error × Option Bytes) : Prop :=
  if r.1 = .ok then (out = none → r.2 = none) ∧ ∀ d, out = some d → ∃ d', r.2 = some (d' ++ d.drop L.toNat) ∧ d'.length = L.toNat
  else r.2 = out

/-- **C45** (extract).  Missing: an empty salt at NULL, see `C44_null_salt`. -/
theorem C45_extract_contract_partial (ctx : Option Unit) (alg : UInt32) (ikm salt : Slice) (out : Option Bytes) (size : Option UInt64)
    (hi : ikm.Valid) (hil : 128 + ikm.bytes.length < 2 ^ 61) (hs : salt.Valid) (hsl : salt.bytes.length < 2 ^ 61)
    (hs0 : salt.buffer = none → salt.size ≠ 0) (ho : ∀ d sz, out = some d → size = some sz → sz.toNat ≤ d.length) :
    ∃ r, n20HkdfExtract (ctx.map fun _ => nat20Ctx.hmac) alg ikm salt out size = .ok r ∧
      r.err = documentedExtractError ctx alg ikm salt out size ∧ CallEffects alg out size r := by
  cases ctx with
  | none => exact ⟨_, rfl, rfl, rfl, rfl⟩
  | some u =>
    rcases alg_cases alg with ⟨a, rfl⟩ | ⟨h1, h2, h3⟩
    · have h1 : digestEnumToSize (algId a) ≠ 0 := by cases a <;> decide
      by_cases hin : ikm.buffer = none ∧ ikm.size ≠ 0
      · refine ⟨⟨.nullSliceIkm, out, size⟩, ?_, ?_, rfl, rfl⟩
        · simp only [Option.map_some, n20HkdfExtract, if_neg h1, if_pos hin]
        · simp only [documentedExtractError, documentedSize_algId, if_pos hin]
      by_cases hsn : salt.buffer = none ∧ salt.size ≠ 0
      · refine ⟨⟨.nullSliceSalt, out, size⟩, ?_, ?_, rfl, rfl⟩
        · simp only [Option.map_some, n20HkdfExtract, if_neg h1, if_neg hin, if_pos hsn]
        · simp only [documentedExtractError, documentedSize_algId, if_neg hin, if_pos hsn]
      cases size with
      | none =>
        refine ⟨⟨.nullSize, out, none⟩, ?_, ?_, rfl, rfl⟩
        · simp only [Option.map_some, n20HkdfExtract, if_neg h1, if_neg hin, if_neg hsn]
        · simp only [documentedExtractError, documentedSize_algId, if_neg hin, if_neg hsn]
      | some sz =>
        by_cases hsz : out = none ∨ sz < UInt64.ofNat a.size
        · refine ⟨⟨.insufficientBufferSize, out, some (UInt64.ofNat a.size)⟩, ?_, ?_, rfl, (documentedSize_algId a).symm⟩
          · simp only [Option.map_some, n20HkdfExtract, if_neg h1, if_neg hin, if_neg hsn]
            rw [digestEnumToSize_algId, if_pos hsz.symm]
          · simp only [documentedExtractError, documentedSize_algId, if_neg hin, if_neg hsn, if_pos hsz]
        · have hszN : (UInt64.ofNat a.size).toNat = a.size := by rw [UInt64.toNat_ofNat']; exact Nat.mod_eq_of_lt (size_lt a)
          have hszle : a.size ≤ sz.toNat :=
            Nat.le_of_not_lt fun h => hsz (.inr (UInt64.lt_iff_toNat_lt.2 (by rw [hszN]; exact h)))
          cases out with
          | none => exact absurd (.inl rfl) hsz
          | some d =>
            refine ⟨_, C44_extract_partial a ikm salt hi (fun h => Classical.byContradiction fun h' => hin ⟨h, h'⟩) hs (fun h => hsn ⟨h, hs0 h⟩) hsl hil
              d sz hszle (ho d sz rfl rfl), ?_, ?_⟩
            · simp only [documentedExtractError, documentedSize_algId, if_neg hin, if_neg hsn, if_neg hsz]
            · exact ⟨_, d, _, documentedSize_algId a, rfl, by rw [hszN], by rw [hszN, hkdfExtract_eq, hmac_length], rfl⟩
    · refine ⟨⟨.unknownAlgorithm, out, size⟩, ?_, ?_, rfl, rfl⟩
      · simp only [Option.map_some, n20HkdfExtract, if_pos h2]
      · simp only [documentedExtractError, h1]

theorem okm_length (a : Alg) (prk info : Bytes) (L : Nat) : ((hkdfBlocks a prk info ((L + a.size - 1) / a.size)).take L).length = L := by
  rw [List.length_take, hkdfBlocks_length]
  exact Nat.min_eq_left (ceil_mul _ _ (size_pos a))

/-- **C45** (expand).  Missing: an empty pseudorandom key at NULL. -/
theorem C45_expand_contract_partial (ctx : Option Unit) (alg : UInt32) (prk info : Slice) (L : UInt64) (out : Option Bytes)
    (hp : prk.Valid) (hpl : prk.bytes.length < 2 ^ 61) (hp0 : prk.buffer = none → prk.size ≠ 0) (hi : info.Valid)
    (hil : 256 + info.bytes.length < 2 ^ 61) (ho : ∀ d, out = some d → L.toNat ≤ d.length) :
    ∃ r, n20HkdfExpand (ctx.map fun _ => nat20Ctx.hmac) alg prk info L out = .ok r ∧
      r.1 = documentedExpandError ctx alg prk info L out ∧ ExpandEffects L out r := by
  cases ctx with
  | none => exact ⟨_, rfl, rfl, rfl⟩
  | some u =>
    have hu : (some u : Option Unit) ≠ none := by simp
    rcases alg_cases alg with ⟨a, rfl⟩ | ⟨h1, h2, h3⟩
    · have h1 : digestEnumToSize (algId a) ≠ 0 := by cases a <;> decide
      have h1' : documentedSize (algId a) ≠ none := by rw [documentedSize_algId]; simp
      by_cases hpn : prk.buffer = none ∧ prk.size ≠ 0
      · refine ⟨(.nullSlicePrk, out), ?_, ?_, rfl⟩
        · simp only [Option.map_some, n20HkdfExpand, if_neg h1, if_pos hpn]
        · simp only [documentedExpandError, if_neg hu, if_neg h1', if_pos hpn]
      by_cases hin : info.buffer = none ∧ info.size ≠ 0
      · refine ⟨(.nullSliceInfo, out), ?_, ?_, rfl⟩
        · simp only [Option.map_some, n20HkdfExpand, if_neg h1, if_neg hpn, if_pos hin]
        · simp only [documentedExpandError, if_neg hu, if_neg h1', if_neg hpn, if_pos hin]
      cases out with
      | none =>
        by_cases hL : L = 0
        · refine ⟨(.ok, none), ?_, ?_, ?_⟩
          · simp only [Option.map_some, n20HkdfExpand, if_neg h1, if_neg hpn, if_neg hin, if_pos hL]
          · simp only [documentedExpandError, if_neg hu, if_neg h1', if_neg hpn, if_neg hin]
            rw [if_neg (fun h => h.2 hL)]
          · exact ⟨fun _ => rfl, fun d hd => by simp at hd⟩
        · refine ⟨(.insufficientBufferSize, none), ?_, ?_, rfl⟩
          · simp only [Option.map_some, n20HkdfExpand, if_neg h1, if_neg hpn, if_neg hin, if_neg hL]
          · simp only [documentedExpandError, if_neg hu, if_neg h1', if_neg hpn, if_neg hin]
            rw [if_pos ⟨trivial, hL⟩]
      | some d =>
        refine ⟨_, nat20_expand_ok a prk info hp (fun h => hpn ⟨h, hp0 h⟩) hpl hi
          (fun h => Classical.byContradiction fun h' => hin ⟨h, h'⟩) hil L d (ho d rfl), ?_, ?_⟩
        · simp only [documentedExpandError, if_neg hu, if_neg h1', if_neg hpn, if_neg hin]
          rw [if_neg (fun h => by simp at h)]
        · refine ⟨fun h => by simp at h, fun d' hd' => ?_⟩
          simp only [Option.some.injEq] at hd'
          subst hd'
          exact ⟨_, rfl, okm_length _ _ _ _⟩
    · refine ⟨(.unknownAlgorithm, out), ?_, ?_, rfl⟩
      · simp only [Option.map_some, n20HkdfExpand, if_pos h2]
      · simp only [documentedExpandError, if_neg hu, if_pos h1]

/-- **C45** (HKDF).  Missing: an empty salt at NULL. -/
theorem C45_hkdf_contract_partial (ctx : Option Unit) (alg : UInt32) (ikm salt info : Slice) (L : UInt64) (out : Option Bytes)
    (hi : ikm.Valid) (hil : 128 + ikm.bytes.length < 2 ^ 61) (hs : salt.Valid) (hsl : salt.bytes.length < 2 ^ 61)
    (hs0 : salt.buffer = none → salt.size ≠ 0) (hf : info.Valid) (hfl : 256 + info.bytes.length < 2 ^ 61)
    (ho : ∀ d, out = some d → L.toNat ≤ d.length) :
    ∃ r, n20Hkdf (ctx.map fun _ => (nat20Ctx.hkdfExtract, nat20Ctx.hkdfExpand)) alg ikm salt info L out = .ok r ∧
      r.1 = documentedHkdfError ctx alg ikm salt info L out ∧ ExpandEffects L out r := by
  cases ctx with
  | none => exact ⟨_, rfl, rfl, rfl⟩
  | some u =>
    have hu : (some u : Option Unit) ≠ none := by simp
    rcases alg_cases alg with ⟨a, rfl⟩ | ⟨h1, h2, h3⟩
    · have h1 : digestEnumToSize (algId a) ≠ 0 := by cases a <;> decide
      have h1' : documentedSize (algId a) ≠ none := by rw [documentedSize_algId]; simp
      by_cases hin : ikm.buffer = none ∧ ikm.size ≠ 0
      · refine ⟨(.nullSliceIkm, out), ?_, ?_, rfl⟩
        · simp only [Option.map_some, n20Hkdf, if_neg h1, if_pos hin]
        · simp only [documentedHkdfError, if_neg hu, if_neg h1', if_pos hin]
      by_cases hsn : salt.buffer = none ∧ salt.size ≠ 0
      · refine ⟨(.nullSliceSalt, out), ?_, ?_, rfl⟩
        · simp only [Option.map_some, n20Hkdf, if_neg h1, if_neg hin, if_pos hsn]
        · simp only [documentedHkdfError, if_neg hu, if_neg h1', if_neg hin, if_pos hsn]
      by_cases hfn : info.buffer = none ∧ info.size ≠ 0
      · refine ⟨(.nullSliceInfo, out), ?_, ?_, rfl⟩
        · simp only [Option.map_some, n20Hkdf, if_neg h1, if_neg hin, if_neg hsn, if_pos hfn]
        · simp only [documentedHkdfError, if_neg hu, if_neg h1', if_neg hin, if_neg hsn, if_pos hfn]
      have hsb : salt.buffer ≠ none := fun h => hsn ⟨h, hs0 h⟩
      obtain ⟨prk, p1, p2, p3, p4⟩ := hkdf_run a ikm salt info hi (fun h => Classical.byContradiction fun h' => hin ⟨h, h'⟩) hs hsb hsl hil
        (fun h => Classical.byContradiction fun h' => hfn ⟨h, h'⟩) L out
      obtain ⟨r, e1, e2, e3⟩ := C45_expand_contract_partial (some ()) (algId a) prk info L out p1
        (by rw [p3, hkdfExtract_eq, hmac_length]; have := size_le_64 a; omega) (fun h => absurd h p2) hf hfl ho
      refine ⟨r, p4.trans e1, ?_, e3⟩
      rw [e2]
      have hu' : (some () : Option Unit) ≠ none := by simp
      simp only [documentedHkdfError, documentedExpandError, if_neg hu, if_neg hu', if_neg h1', if_neg hin, if_neg hsn, if_neg hfn]
      rw [if_neg (fun h => p2 h.1)]
    · refine ⟨(.unknownAlgorithm, out), ?_, ?_, rfl⟩
      · simp only [Option.map_some, n20Hkdf, if_pos h2]
      · simp only [documentedHkdfError, if_neg hu, if_pos h1]

/-- A request for zero octets succeeds without output memory and touches nothing. -/
example : nat20Ctx.hkdfExpand 1 ⟨1, some ⟨[], [7]⟩⟩ Slice.null 0 none = .ok (.ok, none) := by decide +kernel

/-! ## Contexts with other implementations of digest and hmac -/

/-- **C52** (hmac).  If the digest function of the context fails on a call `hmac` makes, then `hmac` returns that error.  Here: for a
digest function that always fails, whatever it does to its output. -/
theorem C52_hmac_propagates (digest : DigestFn) (e : N20Error) (he : e ≠ .ok) (hf : ∀ alg m c o s, ∃ r, digest alg m c o s = .ok r ∧ r.err = e)
    (a : Alg) (key : Slice) (hv : key.Valid) (hb : key.buffer ≠ none) (g : GatherList) (hl : g.NoNullList) (d : Bytes) (sz : UInt64)
    (hsz : ¬ sz < UInt64.ofNat a.size) :
    n20Hmac (some digest) (algId a) key (some g) (some d) (some sz) = .ok ⟨e, some d, some sz⟩ := by
  have h1 : digestEnumToSize (algId a) ≠ 0 := by cases a <;> decide
  have h2 : ¬ (key.buffer = none ∧ key.size ≠ 0) := fun h => hb h.1
  have h3 : ¬ ((some d : Option Bytes) = none ∨ sz < digestEnumToSize (algId a)) := by
    rw [digestEnumToSize_algId]
    rintro (h | h)
    · simp at h
    · exact hsz h
  have h4 : ¬ (g.count ≠ 0 ∧ g.list = none) := fun h => h.1 (hl h.2)
  simp only [n20Hmac, hmacInternal, if_neg h1, if_neg h2, if_neg h3]
  unfold hmacKey
  by_cases hgt : key.size > hmacBlock (algId a)
  · simp only [if_pos hgt]
    obtain ⟨r, e1, e2⟩ := hf (algId a) (some [⟨1, some [key]⟩]) 1 (some (List.replicate 128 0)) (some (digestEnumToSize (algId a)))
    rw [e1]
    simp only [bind, Except.bind, e2, if_neg he]
  · simp only [if_neg hgt]
    cases hp : key.buffer with
    | none => exact absurd hp hb
    | some p =>
      have hpl := hv p hp
      have hle : key.size.toNat ≤ 128 := by
        have hb := block_le_128 a
        rw [← block_toNat] at hb
        exact Nat.le_trans (Nat.le_of_not_lt fun h => hgt (UInt64.lt_iff_toNat_lt.2 h)) hb
      simp only [memcpy]
      rw [if_neg (by omega), if_neg (by simp; omega)]
      simp only [bind, Except.bind, if_true, hmacBody, if_neg h4]
      obtain ⟨r, e1, e2⟩ := hf (algId a) (some [⟨1, some [⟨hmacBlock (algId a), localPtr (hmacXor (hmacBlock (algId a)) 0x36
        (List.take (UInt64.toNat 0) (List.replicate 128 0) ++ List.take key.size.toNat p.data ++ List.drop (UInt64.toNat 0 + key.size.toNat) (List.replicate 128 0)))⟩]⟩, g])
        2 (some (List.replicate 64 0)) (some (digestEnumToSize (algId a)))
      rw [e1]
      simp only [e2, if_neg he]

/-- **C52** (extract).  `hkdf_extract` with valid arguments is the `hmac` of the context, errors included. -/
theorem C52_extract_propagates (hmac : HmacFn) (a : Alg) (ikm salt : Slice) (hin : ikm.buffer = none → ikm.size = 0)
    (hsn : salt.buffer = none → salt.size = 0) (d : Bytes) (sz : UInt64) (hsz : ¬ sz < UInt64.ofNat a.size) :
    n20HkdfExtract (some hmac) (algId a) ikm salt (some d) (some sz) = hmac (algId a) salt (some ⟨1, some [ikm]⟩) (some d) (some sz) := by
  have h1 : digestEnumToSize (algId a) ≠ 0 := by cases a <;> decide
  have h2 : ¬ (ikm.buffer = none ∧ ikm.size ≠ 0) := fun h => h.2 (hin h.1)
  have h3 : ¬ (salt.buffer = none ∧ salt.size ≠ 0) := fun h => h.2 (hsn h.1)
  have h4 : ¬ (sz < digestEnumToSize (algId a) ∨ (some d : Option Bytes) = none) := by
    rw [digestEnumToSize_algId]
    rintro (h | h)
    · exact hsz h
    · simp at h
  simp only [n20HkdfExtract, if_neg h1, if_neg h2, if_neg h3, if_neg h4]

/-- **C52** (hkdf).  An error of the extract step is returned and the output is left alone. -/
theorem C52_hkdf_propagates (extract : ExtractFn) (expand : ExpandFn) (a : Alg) (ikm salt info : Slice) (hin : ikm.buffer = none → ikm.size = 0)
    (hsn : salt.buffer = none → salt.size = 0) (hfn : info.buffer = none → info.size = 0) (L : UInt64) (out : Option Bytes) (r : Reply) (he : r.err ≠ .ok)
    (hf : extract (algId a) ikm salt (some (List.replicate 64 0)) (some (UInt64.ofNat a.size)) = .ok r) :
    n20Hkdf (some (extract, expand)) (algId a) ikm salt info L out = .ok (r.err, out) := by
  have h1 : digestEnumToSize (algId a) ≠ 0 := by cases a <;> decide
  have h2 : ¬ (ikm.buffer = none ∧ ikm.size ≠ 0) := fun h => h.2 (hin h.1)
  have h3 : ¬ (salt.buffer = none ∧ salt.size ≠ 0) := fun h => h.2 (hsn h.1)
  have h4 : ¬ (info.buffer = none ∧ info.size ≠ 0) := fun h => h.2 (hfn h.1)
  simp only [n20Hkdf, if_neg h1, if_neg h2, if_neg h3, if_neg h4]
  rw [digestEnumToSize_algId, hf]
  simp only [bind, Except.bind, if_neg he]

/-- **C52** (violated by expand).  If the `hmac` of the context fails on every call and writes nothing, `hkdf_expand` of any number
of whole blocks reports success and leaves the output as it was: the caller takes old memory contents for a key. -/
theorem C52_expand_ignores_errors (e : N20Error) (a : Alg) (prk info : Slice) (hp : prk.buffer = none → prk.size = 0)
    (hi : info.buffer = none → info.size = 0) (n : Nat) (hn : (n + 1) * a.size < 2 ^ 64) (d : Bytes) :
    n20HkdfExpand (some fun _ _ _ out size => .ok ⟨e, out, size⟩) (algId a) prk info (UInt64.ofNat ((n + 1) * a.size)) (some d) = .ok (.ok, some d) := by
  have h1 : digestEnumToSize (algId a) ≠ 0 := by cases a <;> decide
  have h2 : ¬ (prk.buffer = none ∧ prk.size ≠ 0) := fun h => h.2 (hp h.1)
  have h3 : ¬ (info.buffer = none ∧ info.size ≠ 0) := fun h => h.2 (hi h.1)
  have hsp := size_pos a
  have hszN : (UInt64.ofNat a.size).toNat = a.size := by rw [UInt64.toNat_ofNat']; exact Nat.mod_eq_of_lt (size_lt a)
  have hLN : (UInt64.ofNat ((n + 1) * a.size)).toNat = (n + 1) * a.size := by rw [UInt64.toNat_ofNat']; exact Nat.mod_eq_of_lt hn
  have hpos : 0 < (n + 1) * a.size := Nat.mul_pos (by omega) hsp
  have h4 : UInt64.ofNat ((n + 1) * a.size) ≠ 0 := by
    intro h
    have := congrArg UInt64.toNat h
    rw [hLN] at this
    simp at this
    omega
  simp only [n20HkdfExpand, if_neg h1, if_neg h2, if_neg h3, if_neg h4]
  have loop : ∀ (k fuel : Nat) (s : ExpandState), k < fuel → s.keyOctets.toNat = k * a.size → s.digestSize = UInt64.ofNat a.size → s.mem = d →
      ∃ s', expandLoop (fun _ _ _ out size => .ok ⟨e, out, size⟩) (algId a) prk info fuel s = .ok s' ∧ s'.keyOctets = 0 ∧ s'.mem = d := by
    intro k
    induction k with
    | zero =>
      intro fuel s hf hk hs hm
      cases fuel with
      | zero => omega
      | succ fuel =>
        refine ⟨s, ?_, UInt64.toNat_inj.1 (by rw [hk]; simp), hm⟩
        rw [expandLoop, if_neg]
        intro h
        have := UInt64.le_iff_toNat_le.1 h
        rw [hs, hszN] at this
        omega
    | succ k ih =>
      intro fuel s hf hk hs hm
      cases fuel with
      | zero => omega
      | succ fuel =>
        have hmul : (k + 1) * a.size = k * a.size + a.size := by rw [Nat.add_mul, Nat.one_mul]
        rw [expandLoop, if_pos]
        · obtain ⟨s', e', h'⟩ := ih fuel ⟨s.keyOctets - s.digestSize, s.digestSize, s.mem.take s.off ++ s.mem.drop s.off, s.off + s.digestSize.toNat,
            some (s.off, s.digestSize), s.i + 1⟩ (by omega) (by
              simp only [hs]
              rw [UInt64.toNat_sub_of_le _ _ (UInt64.le_iff_toNat_le.2 (by omega)), hszN]
              omega) hs (by rw [List.take_append_drop]; exact hm)
          exact ⟨s', e', h'⟩
        · apply UInt64.le_iff_toNat_le.2
          rw [hs, hszN]
          omega
  obtain ⟨s', e1, e2, e3⟩ := loop (n + 1) ((UInt64.ofNat ((n + 1) * a.size)).toNat + 1) ⟨UInt64.ofNat ((n + 1) * a.size), digestEnumToSize (algId a), d, 0, none, 1⟩
    (by rw [hLN]; have := Nat.le_mul_of_pos_right (n + 1) hsp; omega) hLN (digestEnumToSize_algId a) rfl
  rw [e1]
  simp only [bind, Except.bind]
  unfold expandRest
  rw [e2, if_neg (by decide), e3]

/-- The digest function of the hypothesis of `C52_hmac_propagates`. -/
example : ∀ alg m c o s, ∃ r, (fun _ _ _ out size => .ok ⟨.noResources, out, size⟩ : DigestFn) alg m c o s = .ok r ∧ r.err = .noResources :=
  fun _ _ _ o s => ⟨⟨.noResources, o, s⟩, rfl, rfl⟩

/-- `digest` with a trap at one call: that call, and no other, never returns. -/
def DigestFn.trap (digest : DigestFn) (alg : UInt32) (msg : Option (List GatherList)) (count : UInt64) (out : Option Bytes) (size : Option UInt64) : DigestFn :=
  fun alg' msg' count' out' size' =>
    if alg' = alg ∧ msg' = msg ∧ count' = count ∧ out' = out ∧ size' = size then .error .diverges else digest alg' msg' count' out' size'

private theorem trap_cases (digest : DigestFn) (alg : UInt32) (m : Option (List GatherList)) (c : UInt64) (o : Option Bytes) (s : Option UInt64)
    (alg' : UInt32) (m' : Option (List GatherList)) (c' : UInt64) (o' : Option Bytes) (s' : Option UInt64) :
    (digest alg' m' c' o' s' = digest alg m c o s) ∨ (digest.trap alg m c o s alg' m' c' o' s' = digest alg' m' c' o' s') := by
  unfold DigestFn.trap
  by_cases h : alg' = alg ∧ m' = m ∧ c' = c ∧ o' = o ∧ s' = s
  · obtain ⟨rfl, rfl, rfl, rfl, rfl⟩ := h
    exact .inl rfl
  · exact .inr (if_neg h)

private theorem memcpy_ne_diverges (dst : Option Bytes) (off : UInt64) (src : Option Ptr) (len : UInt64) : memcpy dst off src len ≠ .error .diverges := by
  unfold memcpy
  split
  · split
    · simp
    · split <;> simp
  · simp

/-- **C52** (hmac, any one call).  For every digest function that always returns and for every arguments of `hmac`: if `hmac` makes some
call of the digest function - that is, if `hmac` does not return when that one call does not - and this call reports an error,
then `hmac` reports the same error. -/
theorem C52_hmac_failing_call (digest : DigestFn) (hd : ∀ alg m c o s, digest alg m c o s ≠ .error .diverges)
    (alg : UInt32) (m : Option (List GatherList)) (c : UInt64) (o : Option Bytes) (s : Option UInt64) (r : Reply)
    (hr : digest alg m c o s = .ok r) (he : r.err ≠ .ok)
    (alg' : UInt32) (key : Slice) (msg : Option GatherList) (out : Option Bytes) (size : Option UInt64)
    (hcall : n20Hmac (some (digest.trap alg m c o s)) alg' key msg out size = .error .diverges) :
    ∃ r', n20Hmac (some digest) alg' key msg out size = .ok r' ∧ r'.err = r.err := by
  have body : ∀ (digestSize : UInt64) (K : Bytes) (sz : UInt64),
      hmacBody (digest.trap alg m c o s) alg' (hmacBlock alg') digestSize K (List.replicate 64 0) msg out sz = .error .diverges →
      ∃ r', hmacBody digest alg' (hmacBlock alg') digestSize K (List.replicate 64 0) msg out sz = .ok r' ∧ r'.err = r.err := by
    intro digestSize K sz h
    unfold hmacBody at h ⊢
    cases msg with
    | none => simp at h
    | some g =>
      simp only at h ⊢
      split
      · rename_i hn
        rw [if_pos hn] at h
        simp at h
      · rename_i hn
        rw [if_neg hn] at h
        rcases trap_cases digest alg m c o s alg' (some [⟨1, some [⟨hmacBlock alg', localPtr (hmacXor (hmacBlock alg') 0x36 K)⟩]⟩, g]) 2
          (some (List.replicate 64 0)) (some digestSize) with e | e
        · rw [e, hr]
          simp only [bind, Except.bind, if_neg he]
          exact ⟨_, rfl, rfl⟩
        · rw [e] at h
          cases h1 : digest alg' (some [⟨1, some [⟨hmacBlock alg', localPtr (hmacXor (hmacBlock alg') 0x36 K)⟩]⟩, g]) 2
            (some (List.replicate 64 0)) (some digestSize) with
          | error u =>
            rw [h1] at h
            simp only [bind, Except.bind, Except.error.injEq] at h
            subst h
            exact absurd h1 (hd _ _ _ _ _)
          | ok q =>
            rw [h1] at h
            simp only [bind, Except.bind] at h ⊢
            split
            · rename_i hq
              rw [if_pos hq] at h
              unfold hmacOuter at h ⊢
              rcases trap_cases digest alg m c o s alg' (some [⟨1, some [⟨hmacBlock alg', localPtr (hmacXor (hmacBlock alg') 0x6a (hmacXor (hmacBlock alg') 0x36 K))⟩]⟩,
                ⟨1, some [⟨q.size.getD digestSize, localPtr (q.out.getD (List.replicate 64 0))⟩]⟩]) 2 out (some sz) with e' | e'
              · exact ⟨r, by rw [e', hr], rfl⟩
              · rw [e'] at h
                exact absurd h (hd _ _ _ _ _)
            · rename_i hq
              rw [if_neg hq] at h
              simp at h
  simp only [n20Hmac] at hcall ⊢
  unfold hmacInternal at hcall ⊢
  split
  · rename_i h; rw [if_pos h] at hcall; simp at hcall
  rename_i h; rw [if_neg h] at hcall
  cases size with
  | none => simp at hcall
  | some sz =>
    simp only at hcall ⊢
    split
    · rename_i h; rw [if_pos h] at hcall; simp at hcall
    rename_i h; rw [if_neg h] at hcall
    split
    · rename_i h; rw [if_pos h] at hcall; simp at hcall
    rename_i h; rw [if_neg h] at hcall
    unfold hmacKey at hcall ⊢
    split
    · rename_i hgt
      rw [if_pos hgt] at hcall
      rcases trap_cases digest alg m c o s alg' (some [⟨1, some [key]⟩]) 1 (some (List.replicate 128 0)) (some (digestEnumToSize alg')) with e | e
      · rw [e, hr]
        simp only [bind, Except.bind, if_neg he]
        exact ⟨_, rfl, rfl⟩
      · rw [e] at hcall
        cases h1 : digest alg' (some [⟨1, some [key]⟩]) 1 (some (List.replicate 128 0)) (some (digestEnumToSize alg')) with
        | error u =>
          rw [h1] at hcall
          simp only [bind, Except.bind, Except.error.injEq] at hcall
          subst hcall
          exact absurd h1 (hd _ _ _ _ _)
        | ok q =>
          rw [h1] at hcall
          simp only [bind, Except.bind] at hcall ⊢
          split
          · rename_i hq
            rw [if_pos hq] at hcall
            exact body _ _ _ hcall
          · rename_i hq
            rw [if_neg hq] at hcall
            simp at hcall
    · rename_i hgt
      rw [if_neg hgt] at hcall
      cases h1 : memcpy (some (List.replicate 128 0)) 0 key.buffer key.size with
      | error u =>
        rw [h1] at hcall
        simp only [bind, Except.bind, Except.error.injEq] at hcall
        subst hcall
        exact absurd h1 (memcpy_ne_diverges _ _ _ _)
      | ok K =>
        rw [h1] at hcall
        simp only [bind, Except.bind, if_true] at hcall ⊢
        exact body _ _ _ hcall

/-- A digest function whose calls with two gather lists and an output of 64 zero octets - the inner digest - fail: `hmac` makes such a call. -/
example : n20Hmac (some (DigestFn.trap (fun _ _ _ out size => .ok ⟨.noResources, out, size⟩) 1
      (some [⟨1, some [⟨64, localPtr (hmacXor 64 0x36 (7 :: List.replicate 127 0))⟩]⟩, ⟨0, none⟩]) 2 (some (List.replicate 64 0)) (some 32)))
    1 ⟨1, some ⟨[], [7]⟩⟩ (some ⟨0, none⟩) (some (List.replicate 32 0)) (some 32) = .error .diverges := by decide +kernel

/-- **C52** (expand, exactly which error is reported).  For a context whose `hmac` leaves the size alone and reports an error chosen
by the last octet of the message - the block counter, by any rule `f` - `hkdf_expand` of `L` octets reports the error for
the last, incomplete block if there is one, and success otherwise.  (C52 asks for the first error of any block.) -/
theorem C52_expand_last_block_partial (hmac : HmacFn) (f : UInt8 → N20Error)
    (hf : ∀ alg k g o s, ∃ r o', hmac alg k (some g) (some o) (some s) = .ok r ∧ r.size = some s ∧ r.out = some o' ∧ o'.length = o.length ∧
      ∀ m c, g.bytes = m ++ [c] → r.err = f c)
    (a : Alg) (prk info : Slice) (hp : prk.buffer = none → prk.size = 0) (hi : info.buffer = none → info.size = 0)
    (L : UInt64) (hL : L ≠ 0) (d : Bytes) (hd : L.toNat ≤ d.length) (hd' : d.length < 2 ^ 64) :
    ∃ d', n20HkdfExpand (some hmac) (algId a) prk info L (some d) =
        .ok (if L.toNat % a.size = 0 then .ok else f (UInt8.ofNat (L.toNat / a.size + 1)), some d') ∧ d'.length = d.length := by
  have h1 : digestEnumToSize (algId a) ≠ 0 := by cases a <;> decide
  have h2 : ¬ (prk.buffer = none ∧ prk.size ≠ 0) := fun h => h.2 (hp h.1)
  have h3 : ¬ (info.buffer = none ∧ info.size ≠ 0) := fun h => h.2 (hi h.1)
  have hsp := size_pos a
  have hszN : (UInt64.ofNat a.size).toNat = a.size := by rw [UInt64.toNat_ofNat']; exact Nat.mod_eq_of_lt (size_lt a)
  have hin : ∀ mem prev i, ∃ m, (expandInput mem prev info i).bytes = m ++ [i] := by
    intro mem prev i
    cases prev with
    | none => exact ⟨Slice.bytes ⟨0, none⟩ ++ info.bytes, by simp [expandInput, GatherList.bytes, GatherList.slices, Slice.bytes, localPtr]⟩
    | some p => exact ⟨Slice.bytes ⟨p.2, some ⟨mem.take p.1, mem.drop p.1⟩⟩ ++ info.bytes, by simp [expandInput, GatherList.bytes, GatherList.slices, Slice.bytes, localPtr]⟩
  have loop : ∀ (k fuel : Nat) (s : ExpandState), k < fuel → s.keyOctets.toNat / a.size = k → s.digestSize = UInt64.ofNat a.size →
      s.mem.length = d.length → s.off + s.keyOctets.toNat ≤ d.length →
      ∃ s', expandLoop hmac (algId a) prk info fuel s = .ok s' ∧ s'.keyOctets.toNat = s.keyOctets.toNat % a.size ∧ s'.digestSize = UInt64.ofNat a.size ∧
        s'.mem.length = d.length ∧ s'.off + s'.keyOctets.toNat ≤ d.length ∧ s'.i = s.i + UInt8.ofNat k := by
    intro k
    induction k with
    | zero =>
      intro fuel s hfu hk hs hm ho
      have hlt : s.keyOctets.toNat < a.size := (Nat.div_eq_zero_iff_lt hsp).1 hk
      cases fuel with
      | zero => omega
      | succ fuel =>
        refine ⟨s, ?_, (Nat.mod_eq_of_lt hlt).symm, hs, hm, ho, by simp⟩
        rw [expandLoop, if_neg]
        intro h
        have := UInt64.le_iff_toNat_le.1 h
        rw [hs, hszN] at this
        omega
    | succ k ih =>
      intro fuel s hfu hk hs hm ho
      have hge : a.size ≤ s.keyOctets.toNat := by
        refine Classical.byContradiction fun h => ?_
        rw [Nat.div_eq_of_lt (by omega)] at hk
        omega
      have hsub : (s.keyOctets - UInt64.ofNat a.size).toNat = s.keyOctets.toNat - a.size := by
        rw [UInt64.toNat_sub_of_le _ _ (UInt64.le_iff_toNat_le.2 (by omega)), hszN]
      cases fuel with
      | zero => omega
      | succ fuel =>
        rw [expandLoop, if_pos (by apply UInt64.le_iff_toNat_le.2; rw [hs, hszN]; omega)]
        obtain ⟨r, o', e1, e2, e3, e4, _⟩ := hf (algId a) prk (expandInput s.mem s.prev info s.i) (s.mem.drop s.off) s.digestSize
        rw [hs] at e1 e2
        simp only [expandStep, hs, e1, bind, Except.bind, e2, e3, Option.getD_some]
        obtain ⟨s', q1, q2, q3, q4, q5, q6⟩ := ih fuel ⟨s.keyOctets - UInt64.ofNat a.size, UInt64.ofNat a.size, s.mem.take s.off ++ o',
          s.off + (UInt64.ofNat a.size).toNat, some (s.off, UInt64.ofNat a.size), s.i + 1⟩ (by omega)
          (by simp only [hsub]; rw [Nat.div_eq_sub_div hsp hge] at hk; omega) rfl
          (by simp only [List.length_append, List.length_take, e4, List.length_drop]; omega)
          (by simp only [hsub, hszN]; omega)
        refine ⟨s', q1, ?_, q3, q4, q5, ?_⟩
        · rw [q2]
          simp only [hsub]
          exact (Nat.mod_eq_sub_mod hge).symm
        · rw [q6]
          simp only
          apply UInt8.toNat_inj.1
          simp only [UInt8.toNat_add, UInt8.toNat_ofNat', UInt8.reduceToNat]
          omega
  simp only [n20HkdfExpand, if_neg h1, if_neg h2, if_neg h3, if_neg hL]
  obtain ⟨s, q1, q2, q3, q4, q5, q6⟩ := loop (L.toNat / a.size) (L.toNat + 1) ⟨L, digestEnumToSize (algId a), d, 0, none, 1⟩
    (by have := Nat.div_le_self L.toNat a.size; omega) rfl (digestEnumToSize_algId a) rfl (by simpa using hd)
  rw [q1]
  simp only [bind, Except.bind] at q2 q6 ⊢
  unfold expandRest
  by_cases hz : L.toNat % a.size = 0
  · rw [if_neg (by intro h; have := UInt64.lt_iff_toNat_lt.1 h; simp at this; omega), if_pos hz]
    exact ⟨_, rfl, q4⟩
  · rw [if_pos (by apply UInt64.lt_iff_toNat_lt.2; simp; omega), if_neg hz]
    obtain ⟨r, o', e1, e2, e3, e4, e5⟩ := hf (algId a) prk (expandInput s.mem s.prev info s.i) (List.replicate 64 0) s.digestSize
    obtain ⟨m, hm⟩ := hin s.mem s.prev s.i
    have hi' : s.i = UInt8.ofNat (L.toNat / a.size + 1) := by
      rw [q6]
      apply UInt8.toNat_inj.1
      simp only [UInt8.toNat_add, UInt8.toNat_ofNat', UInt8.reduceToNat]
      omega
    have he := e5 m s.i hm
    rw [hi'] at he
    simp only [e1, bind, Except.bind]
    by_cases hr : r.err = .ok
    · simp only [if_pos hr, e3, Option.getD_some, localPtr, memcpy]
      have hlt := Nat.mod_lt L.toNat hsp
      have h64 := size_le_64 a
      have hoff : (UInt64.ofNat s.off).toNat = s.off := by rw [UInt64.toNat_ofNat']; exact Nat.mod_eq_of_lt (by omega)
      rw [List.length_replicate] at e4
      rw [if_neg (by omega), if_neg (by omega)]
      rw [← he, hr]
      refine ⟨_, rfl, ?_⟩
      simp only [List.length_append, List.length_take, List.length_drop, hoff, e4]
      omega
    · simp only [if_neg hr]
      exact ⟨_, by rw [he], q4⟩

/-- The hypothesis is met by an `hmac` that fails for the second block only; `hkdf_expand` of 40 octets with SHA-256 then fails ... -/
def secondBlockFails : HmacFn := fun _ _ g out size =>
  match g with
  | none => .ok ⟨.nullData, out, size⟩
  | some g => .ok ⟨if g.bytes.getLast? = some 2 then .noResources else .ok, out, size⟩

example : ∀ alg k g o s, ∃ r o', secondBlockFails alg k (some g) (some o) (some s) = .ok r ∧ r.size = some s ∧ r.out = some o' ∧ o'.length = o.length ∧
      ∀ m c, g.bytes = m ++ [c] → r.err = if c = 2 then .noResources else .ok := by
  intro alg k g o s
  refine ⟨_, o, rfl, rfl, rfl, rfl, fun m c h => ?_⟩
  simp only [h, List.getLast?_append, List.getLast?_singleton, Option.some_or, Option.some.injEq]

/-- ... and of 70 octets succeeds. -/
example : (n20HkdfExpand (some secondBlockFails) 1 Slice.null Slice.null 40 (some (List.replicate 70 0))).toOption.map (·.1) = some .noResources ∧
    (n20HkdfExpand (some secondBlockFails) 1 Slice.null Slice.null 70 (some (List.replicate 70 0))).toOption.map (·.1) = some .ok := by decide +kernel

/-- **C52** (hkdf, second step).  After a successful extract step `hkdf` returns exactly what the expand function of the context
returns for the key extracted. -/
theorem C52_hkdf_expand_result (extract : ExtractFn) (expand : ExpandFn) (a : Alg) (ikm salt info : Slice) (hin : ikm.buffer = none → ikm.size = 0)
    (hsn : salt.buffer = none → salt.size = 0) (hfn : info.buffer = none → info.size = 0) (L : UInt64) (out : Option Bytes) (prk : Bytes) (n : UInt64)
    (hf : extract (algId a) ikm salt (some (List.replicate 64 0)) (some (UInt64.ofNat a.size)) = .ok ⟨.ok, some prk, some n⟩) :
    n20Hkdf (some (extract, expand)) (algId a) ikm salt info L out = expand (algId a) ⟨n, some ⟨[], prk⟩⟩ info L out := by
  have h1 : digestEnumToSize (algId a) ≠ 0 := by cases a <;> decide
  have h2 : ¬ (ikm.buffer = none ∧ ikm.size ≠ 0) := fun h => h.2 (hin h.1)
  have h3 : ¬ (salt.buffer = none ∧ salt.size ≠ 0) := fun h => h.2 (hsn h.1)
  have h4 : ¬ (info.buffer = none ∧ info.size ≠ 0) := fun h => h.2 (hfn h.1)
  simp only [n20Hkdf, if_neg h1, if_neg h2, if_neg h3, if_neg h4]
  rw [digestEnumToSize_algId, hf]
  simp only [bind, Except.bind, if_true, Option.getD_some, localPtr]

/-- **C53**.  Opening gives the native context or reports a NULL argument, and every context can be closed. -/
theorem C53_open_close (c : Option DigestCtx) :
    nat20Open none = (.unexpectedNull, none) ∧ nat20Open (some c) = (.ok, some (some nat20Ctx)) ∧
    nat20Close none = .unexpectedNull ∧ nat20Close (some nat20Ctx) = .ok := ⟨rfl, rfl, rfl, rfl⟩

end Nat20

import Verif.Lemmas.Sha2Const
import Verif.Props.Sha2
import Verif.Spec.Digest
/-!
# The digest context refines SHA-2, RFC 2104 and RFC 5869
-/

namespace Nat20

open Fips

/-- The state has absorbed `msg`. -/
def DRep (a : Alg) (st : DigestState) (msg : Bytes) : Prop :=
  match a with
  | .sha224 => Rep family256 (hashOf initialSha224) st.sha256 msg
  | .sha256 => Rep family256 (hashOf (initialFirst 32)) st.sha256 msg
  | .sha384 => Rep family512 (hashOf initialSha384) st.sha512 msg
  | .sha512 => Rep family512 (hashOf (initialFirst 64)) st.sha512 msg

theorem digestEnumToSize_algId (a : Alg) : digestEnumToSize (algId a) = UInt64.ofNat a.size := by cases a <;> rfl

theorem digestEnumToSize_toNat (a : Alg) : (digestEnumToSize (algId a)).toNat = a.size := by cases a <;> rfl

theorem digestInit_ok (a : Alg) (st : DigestState) : ∃ st', digestInit st (algId a) = some st' ∧ DRep a st' [] := by
  cases a
  · exact ⟨_, rfl, by simp only [DRep, sha224Init_eq]; exact init_rep _ (by decide)⟩
  · exact ⟨_, rfl, by simp only [DRep, sha256Init_eq]; exact init_rep _ (by decide)⟩
  · exact ⟨_, rfl, by simp only [DRep, sha384Init_eq]; exact init_rep _ (by decide)⟩
  · exact ⟨_, rfl, by simp only [DRep, sha512Init_eq]; exact init_rep _ (by decide)⟩

theorem digestUpdate_ok (a : Alg) (st : DigestState) (msg : Bytes) (h : DRep a st msg) (s : Slice) (hs : s.Valid) :
    ∃ st', digestUpdate (algId a) st s = .ok st' ∧ DRep a st' (msg ++ s.bytes) := by
  cases a
  · obtain ⟨s', e, r⟩ := update_ok sha256_refines (by decide) _ _ _ h s hs
    exact ⟨{ st with sha256 := s' }, by simp only [digestUpdate, algId, sha256Update]; exact congrArg (· >>= _) e, r⟩
  · obtain ⟨s', e, r⟩ := update_ok sha256_refines (by decide) _ _ _ h s hs
    exact ⟨{ st with sha256 := s' }, by simp only [digestUpdate, algId, sha256Update]; exact congrArg (· >>= _) e, r⟩
  · obtain ⟨s', e, r⟩ := update_ok sha512_refines (by decide) _ _ _ h s hs
    exact ⟨{ st with sha512 := s' }, by simp only [digestUpdate, algId, sha512Update]; exact congrArg (· >>= _) e, r⟩
  · obtain ⟨s', e, r⟩ := update_ok sha512_refines (by decide) _ _ _ h s hs
    exact ⟨{ st with sha512 := s' }, by simp only [digestUpdate, algId, sha512Update]; exact congrArg (· >>= _) e, r⟩

theorem digestFinalize_ok (a : Alg) (st : DigestState) (msg : Bytes) (h : DRep a st msg) (hm : msg.length < 2 ^ 61) (d : Bytes) (hd : a.size ≤ d.length) :
    digestFinalize (algId a) st (some d) = .ok (some (sha2 a msg ++ d.drop a.size)) := by
  cases a
  · obtain ⟨s', e⟩ := finalize_ok sha256_refines (by decide) _ _ _ h hm d 28 (by decide) hd
    exact congrArg (· >>= _) e
  · obtain ⟨s', e⟩ := finalize_ok sha256_refines (by decide) _ _ _ h hm d 32 (by decide) hd
    rw [List.take_of_length_le (by rw [output_length]; decide)] at e
    exact congrArg (· >>= _) e
  · obtain ⟨s', e⟩ := finalize_ok sha512_refines (by decide) _ _ _ h hm d 48 (by decide) hd
    exact congrArg (· >>= _) e
  · obtain ⟨s', e⟩ := finalize_ok sha512_refines (by decide) _ _ _ h hm d 64 (by decide) hd
    rw [List.take_of_length_le (by rw [output_length]; decide)] at e
    exact congrArg (· >>= _) e

theorem slice_bytes_of_size_zero (s : Slice) (h : s.size = 0) : s.bytes = [] := by
  unfold Slice.bytes
  cases s.buffer <;> simp [h]

/-- Some slice announces octets at NULL. -/
def hasNull (l : List Slice) : Prop := ∃ s ∈ l, s.buffer = none ∧ s.size ≠ 0

theorem digestList_ok (a : Alg) (n : Nat) : ∀ (l : List Slice) (st : DigestState) (msg : Bytes), DRep a st msg → n ≤ l.length →
    (∀ s ∈ l.take n, s.Valid) →
    (hasNull (l.take n) → ∃ st', digestList (algId a) n l st = .ok (.nullSlice, st')) ∧
    (¬ hasNull (l.take n) → ∃ st', digestList (algId a) n l st = .ok (.ok, st') ∧ DRep a st' (msg ++ ((l.take n).map Slice.bytes).flatten)) := by
  induction n with
  | zero =>
    intro l st msg h hn hv
    refine ⟨fun hx => ?_, fun _ => ⟨st, by unfold digestList; rfl, by simpa using h⟩⟩
    obtain ⟨s, hs, _⟩ := hx
    simp at hs
  | succ n ih =>
    intro l st msg h hn hv
    cases l with
    | nil => simp at hn
    | cons s l =>
      rw [List.take_succ_cons] at hv ⊢
      have hn' : n ≤ l.length := by simpa using hn
      have hv' : ∀ s ∈ l.take n, s.Valid := fun x hx => hv x (by simp [hx])
      rw [digestList]
      by_cases hz : s.size = 0
      · rw [if_pos hz]
        have := ih l st msg h hn' hv'
        refine ⟨fun hx => this.1 ?_, fun hx => ?_⟩
        · obtain ⟨x, hx, hb, hs⟩ := hx
          rcases List.mem_cons.1 hx with rfl | hx
          · exact absurd hz hs
          · exact ⟨x, hx, hb, hs⟩
        · obtain ⟨st', e, r⟩ := this.2 (fun ⟨x, hx', hb, hs⟩ => hx ⟨x, by simp [hx'], hb, hs⟩)
          exact ⟨st', e, by simpa [slice_bytes_of_size_zero s hz] using r⟩
      · rw [if_neg hz]
        cases hb : s.buffer with
        | none => exact ⟨fun _ => ⟨st, rfl⟩, fun hx => absurd ⟨s, by simp, hb, hz⟩ hx⟩
        | some p =>
          obtain ⟨st1, e1, r1⟩ := digestUpdate_ok a st msg h s (hv s (by simp))
          have := ih l st1 _ r1 hn' hv'
          simp only [e1]
          refine ⟨fun hx => this.1 ?_, fun hx => ?_⟩
          · obtain ⟨x, hx, hb', hs⟩ := hx
            rcases List.mem_cons.1 hx with rfl | hx
            · rw [hb] at hb'; exact absurd hb' (by simp)
            · exact ⟨x, hx, hb', hs⟩
          · obtain ⟨st', e, r⟩ := this.2 (fun ⟨x, hx', hb, hs⟩ => hx ⟨x, by simp [hx'], hb, hs⟩)
            exact ⟨st', e, by simpa using r⟩

theorem hasNull_iff (g : GatherList) : hasNull g.slices ↔ ¬ g.NoNullSlice := by
  unfold hasNull GatherList.NoNullSlice
  constructor
  · rintro ⟨s, h1, h2, h3⟩ h; exact h3 (h s h1 h2)
  · intro h
    rcases Classical.em (∃ s ∈ g.slices, s.buffer = none ∧ s.size ≠ 0) with h' | h'
    · exact h'
    · exact absurd (fun s h1 h2 => Classical.byContradiction fun h3 => h' ⟨s, h1, h2, h3⟩) h

theorem digestGather_ok (a : Alg) (g : GatherList) (hg : g.Valid) (hl : g.NoNullList) (st : DigestState) (msg : Bytes) (h : DRep a st msg) :
    (¬ g.NoNullSlice → ∃ st', digestGather (algId a) g st = .ok (.nullSlice, st')) ∧
    (g.NoNullSlice → ∃ st', digestGather (algId a) g st = .ok (.ok, st') ∧ DRep a st' (msg ++ g.bytes)) := by
  obtain ⟨count, list⟩ := g
  cases list with
  | none =>
    have hc : count = 0 := hl rfl
    subst hc
    refine ⟨fun hx => absurd ?_ hx, fun _ => ⟨st, rfl, by simpa [GatherList.bytes, GatherList.slices] using h⟩⟩
    intro s hs; simp [GatherList.slices] at hs
  | some l =>
    have := digestList_ok a count.toNat l st msg h (hg.list l rfl) hg.slices
    have hn := hasNull_iff ⟨count, some l⟩
    exact ⟨fun hx => this.1 (hn.2 hx), fun hx => this.2 (fun hy => hn.1 hy hx)⟩

theorem digestLists_ok (a : Alg) (n : Nat) : ∀ (l : List GatherList) (st : DigestState) (msg : Bytes), DRep a st msg → n ≤ l.length →
    (∀ g ∈ l.take n, g.Valid ∧ g.NoNullList) →
    ((∃ g ∈ l.take n, ¬ g.NoNullSlice) → ∃ st', digestLists (algId a) n l st = .ok (.nullSlice, st')) ∧
    ((∀ g ∈ l.take n, g.NoNullSlice) → ∃ st', digestLists (algId a) n l st = .ok (.ok, st') ∧
      DRep a st' (msg ++ ((l.take n).map GatherList.bytes).flatten)) := by
  induction n with
  | zero =>
    intro l st msg h hn hv
    refine ⟨fun ⟨g, hg, _⟩ => by simp at hg, fun _ => ⟨st, by unfold digestLists; rfl, by simpa using h⟩⟩
  | succ n ih =>
    intro l st msg h hn hv
    cases l with
    | nil => simp at hn
    | cons g l =>
      rw [List.take_succ_cons] at hv ⊢
      have hn' : n ≤ l.length := by simpa using hn
      have hg := hv g (by simp)
      have hv' : ∀ g ∈ l.take n, g.Valid ∧ g.NoNullList := fun x hx => hv x (by simp [hx])
      have hd := digestGather_ok a g hg.1 hg.2 st msg h
      rw [digestLists]
      by_cases hs : g.NoNullSlice
      · obtain ⟨st1, e1, r1⟩ := hd.2 hs
        have := ih l st1 _ r1 hn' hv'
        simp only [e1]
        refine ⟨fun hx => this.1 ?_, fun hx => ?_⟩
        · obtain ⟨x, hx, hb⟩ := hx
          rcases List.mem_cons.1 hx with rfl | hx
          · exact absurd hs hb
          · exact ⟨x, hx, hb⟩
        · obtain ⟨st', e, r⟩ := this.2 (fun x hx' => hx x (by simp [hx']))
          exact ⟨st', e, by simpa using r⟩
      · obtain ⟨st1, e1⟩ := hd.1 hs
        simp only [e1]
        exact ⟨fun _ => ⟨st1, rfl⟩, fun hx => absurd (hx g (by simp)) hs⟩

/-- The message of an array of gather lists. -/
def messageOf (msg : List GatherList) (count : UInt64) : Bytes := ((msg.take count.toNat).map GatherList.bytes).flatten

theorem size_lt (a : Alg) : a.size < 2 ^ 64 := by cases a <;> decide
theorem size_le_64 (a : Alg) : a.size ≤ 64 := by cases a <;> decide
theorem block_le_128 (a : Alg) : a.block ≤ 128 := by cases a <;> decide
theorem size_le_block (a : Alg) : a.size ≤ a.block := by cases a <;> decide
theorem size_pos (a : Alg) : 0 < a.size := by cases a <;> decide

/-- `digest` with everything in order. -/
theorem nat20_digest_ok (a : Alg) (msg : List GatherList) (count : UInt64) (hne : msg ≠ []) (hc : count.toNat ≤ msg.length)
    (hv : ∀ g ∈ msg.take count.toNat, g.Valid ∧ g.NoNullList ∧ g.NoNullSlice) (h0 : ∀ g ∈ msg.head?, g.NoNullList)
    (hm : (messageOf msg count).length < 2 ^ 61) (d : Bytes) (sz : UInt64) (hsz : a.size ≤ sz.toNat) (hd : a.size ≤ d.length) :
    nat20Ctx.digest (algId a) (some msg) count (some d) (some sz) =
      .ok ⟨.ok, some (sha2 a (messageOf msg count) ++ d.drop a.size), some (UInt64.ofNat a.size)⟩ := by
  cases msg with
  | nil => exact absurd rfl hne
  | cons g gs =>
    obtain ⟨st, e, r⟩ := digestInit_ok a DigestState.zero
    obtain ⟨st', e', r'⟩ := (digestLists_ok a count.toNat (g :: gs) st [] r hc (fun g hg => ⟨(hv g hg).1, (hv g hg).2.1⟩)).2 (fun g hg => (hv g hg).2.2)
    have hg0 := h0 g (by simp)
    have hle : ¬ (digestEnumToSize (algId a) > sz ∨ (some d : Option Bytes) = none) := by
      rintro (h | h)
      · have := UInt64.lt_iff_toNat_lt.1 h
        rw [digestEnumToSize_toNat] at this
        omega
      · simp at h
    have hnl : ¬ (g.count ≠ 0 ∧ g.list = none) := fun h => h.1 (hg0 h.2)
    show digestInternal DigestState.zero (algId a) (some (g :: gs)) count (some d) (some sz) = _
    simp only [digestInternal, e, if_neg hle, digestMessage, if_neg hnl, e']
    have := digestFinalize_ok a st' _ r' (by simpa [messageOf] using hm) d hd
    simp only [List.nil_append] at this
    show (do let o ← digestFinalize (algId a) st' (some d); Except.ok (⟨.ok, o, some (digestEnumToSize (algId a))⟩ : Reply)) = _
    rw [this, digestEnumToSize_algId]
    rfl

theorem slice_bytes_length (s : Slice) (hv : s.Valid) (hb : s.buffer ≠ none) : s.bytes.length = s.size.toNat := by
  unfold Slice.bytes
  cases h : s.buffer with
  | none => exact absurd h hb
  | some p => have := hv p h; simp only [List.length_take]; omega

theorem hmacKeyBlock_length (a : Alg) (key : Bytes) : (hmacKeyBlock a key).length = a.block := by
  unfold hmacKeyBlock
  simp only [List.length_append, List.length_replicate]
  have := size_le_block a
  split
  · rw [sha2_length]; omega
  · omega

theorem block_toNat (a : Alg) : (hmacBlock (algId a)).toNat = a.block := by cases a <;> rfl

theorem hmacKey_ok (a : Alg) (key : Slice) (hv : key.Valid) (hb : key.buffer ≠ none) (hl : key.bytes.length < 2 ^ 61) :
    hmacKey nat20Ctx.digest (algId a) key (hmacBlock (algId a)) (digestEnumToSize (algId a)) (List.replicate 128 0) =
      .ok (.ok, hmacKeyBlock a key.bytes ++ List.replicate (128 - a.block) 0, UInt64.ofNat a.size) := by
  have hlen := slice_bytes_length key hv hb
  have h128 := block_le_128 a
  have hsb := size_le_block a
  have hsl := size_lt a
  unfold hmacKey
  by_cases hgt : key.size > hmacBlock (algId a)
  · rw [if_pos hgt]
    have hgt' := UInt64.lt_iff_toNat_lt.1 hgt
    rw [block_toNat] at hgt'
    have hmsg : messageOf [⟨1, some [key]⟩] 1 = key.bytes := by simp [messageOf, GatherList.bytes, GatherList.slices]
    have := nat20_digest_ok a [⟨1, some [key]⟩] 1 (by simp) (by simp) (by
        intro g hg
        simp at hg
        subst hg
        refine ⟨⟨fun l hl => ?_, fun s hs => ?_⟩, fun h => by simp at h, fun s hs hn => ?_⟩
        · simp at hl; subst hl; simp
        · simp [GatherList.slices] at hs; subst hs; exact hv
        · simp [GatherList.slices] at hs; subst hs; exact absurd hn hb)
      (by intro g hg; simp at hg; subst hg; intro h; simp at h) (by rw [hmsg]; exact hl) (List.replicate 128 0) (digestEnumToSize (algId a))
      (by rw [digestEnumToSize_toNat]; exact Nat.le_refl _) (by simp; omega)
    rw [this, hmsg]
    simp only [hmacKeyBlock]
    rw [if_pos (by omega), sha2_length, List.append_assoc, List.replicate_append_replicate, List.drop_replicate]
    have e : a.block - a.size + (128 - a.block) = 128 - a.size := by omega
    rw [e]
    rfl
  · rw [if_neg hgt]
    have hle : key.size.toNat ≤ a.block :=
      Nat.le_of_not_lt fun h => hgt (UInt64.lt_iff_toNat_lt.2 (by rw [block_toNat]; exact h))
    cases hp : key.buffer with
    | none => exact absurd hp hb
    | some p =>
      have hpl := hv p hp
      have hbytes : key.bytes = p.data.take key.size.toNat := by unfold Slice.bytes; rw [hp]
      simp only [memcpy]
      rw [if_neg (by omega), if_neg (by simp; omega)]
      have hk0 : hmacKeyBlock a key.bytes ++ List.replicate (128 - a.block) 0 = key.bytes ++ List.replicate (a.block - key.size.toNat + (128 - a.block)) 0 := by
        simp only [hmacKeyBlock]
        rw [if_neg (by omega), List.append_assoc, List.replicate_append_replicate, hlen]
      rw [hk0, digestEnumToSize_algId]
      have e : a.block - key.size.toNat + (128 - a.block) = 128 - key.size.toNat := by omega
      rw [e, hbytes]
      have e0 : (0 : UInt64).toNat = 0 := rfl
      rw [e0, Nat.zero_add, List.drop_replicate]
      rfl

theorem hmacXor_ok (a : Alg) (x : UInt8) (K rest : Bytes) (h : K.length = a.block) :
    hmacXor (hmacBlock (algId a)) x (K ++ rest) = K.map (· ^^^ x) ++ rest := by
  unfold hmacXor
  rw [block_toNat, List.take_append_of_le_length (by omega), List.take_of_length_le (by omega), List.drop_append_of_le_length (by omega),
    List.drop_of_length_le (by omega), List.nil_append]

theorem xor_pads (K : Bytes) : (K.map (· ^^^ 0x36)).map (· ^^^ 0x6a) = K.map (· ^^^ 0x5c) := by
  rw [List.map_map]
  apply List.map_congr_left
  intro x _
  show (x ^^^ 0x36) ^^^ 0x6a = x ^^^ 0x5c
  rw [UInt8.xor_assoc]
  rfl

theorem localSlice_bytes (n : UInt64) (K rest : Bytes) (h : K.length = n.toNat) : (⟨n, localPtr (K ++ rest)⟩ : Slice).bytes = K := by
  simp only [Slice.bytes, localPtr]
  rw [List.take_append_of_le_length (by omega), List.take_of_length_le (by omega)]

theorem localSlice_valid (n : UInt64) (K : Bytes) (h : n.toNat ≤ K.length) : (⟨n, localPtr K⟩ : Slice).Valid := by
  intro p hp
  simp only [localPtr, Option.some.injEq] at hp
  subst hp
  exact h

/-- The digest of a local buffer followed by a gather list. -/
theorem digest_two (a : Alg) (n : UInt64) (K rest : Bytes) (hK : K.length = n.toNat) (g : GatherList) (hg : g.Valid) (hl : g.NoNullList) (hs : g.NoNullSlice)
    (hm : K.length + g.bytes.length < 2 ^ 61) (d : Bytes) (sz : UInt64) (hsz : a.size ≤ sz.toNat) (hd : a.size ≤ d.length) :
    nat20Ctx.digest (algId a) (some [⟨1, some [⟨n, localPtr (K ++ rest)⟩]⟩, g]) 2 (some d) (some sz) =
      .ok ⟨.ok, some (sha2 a (K ++ g.bytes) ++ d.drop a.size), some (UInt64.ofNat a.size)⟩ := by
  have hmsg : messageOf [⟨1, some [⟨n, localPtr (K ++ rest)⟩]⟩, g] 2 = K ++ g.bytes := by
    simp only [messageOf]
    have : (2 : UInt64).toNat = 2 := rfl
    simp only [this, List.take_succ_cons, List.take_zero, List.map_cons, List.map_nil, List.flatten_cons, List.flatten_nil, List.append_nil]
    congr 1
    show ([Slice.bytes _].flatten) = _
    rw [List.flatten_cons, List.flatten_nil, List.append_nil, localSlice_bytes _ _ _ hK]
  have := nat20_digest_ok a [⟨1, some [⟨n, localPtr (K ++ rest)⟩]⟩, g] 2 (by simp) (by simp) (by
      intro x hx
      simp at hx
      rcases hx with rfl | rfl
      · refine ⟨⟨fun l hl => ?_, fun s hs => ?_⟩, fun h => by simp at h, fun s hs hn => ?_⟩
        · simp at hl; subst hl; simp
        · simp [GatherList.slices] at hs; subst hs; exact localSlice_valid _ _ (by simp; omega)
        · simp [GatherList.slices] at hs; subst hs; simp [localPtr] at hn
      · exact ⟨hg, hl, hs⟩)
    (by intro x hx; simp at hx; subst hx; intro h; simp at h) (by rw [hmsg, List.length_append]; exact hm) d sz hsz hd
  rw [this, hmsg]

theorem nat20_hmac_ok (a : Alg) (key : Slice) (hv : key.Valid) (hb : key.buffer ≠ none) (hkl : key.bytes.length < 2 ^ 61)
    (g : GatherList) (hg : g.Valid) (hl : g.NoNullList) (hs : g.NoNullSlice) (hm : a.block + g.bytes.length < 2 ^ 61)
    (d : Bytes) (sz : UInt64) (hsz : a.size ≤ sz.toNat) (hd : a.size ≤ d.length) :
    nat20Ctx.hmac (algId a) key (some g) (some d) (some sz) =
      .ok ⟨.ok, some (hmac a key.bytes g.bytes ++ d.drop a.size), some (UInt64.ofNat a.size)⟩ := by
  have hKl := hmacKeyBlock_length a key.bytes
  have hbl := block_toNat a
  have hsl := size_lt a
  have h64 := size_le_64 a
  have hsb := size_le_block a
  have h128 := block_le_128 a
  have h1 : digestEnumToSize (algId a) ≠ 0 := by cases a <;> decide
  have h2 : ¬ (key.buffer = none ∧ key.size ≠ 0) := fun h => hb h.1
  have h3 : ¬ ((some d : Option Bytes) = none ∨ sz < digestEnumToSize (algId a)) := by
    rintro (h | h)
    · simp at h
    · have := UInt64.lt_iff_toNat_lt.1 h
      rw [digestEnumToSize_toNat] at this
      omega
  have h4 : ¬ (g.count ≠ 0 ∧ g.list = none) := fun h => h.1 (hl h.2)
  have hszN : (UInt64.ofNat a.size).toNat = a.size := by rw [UInt64.toNat_ofNat']; exact Nat.mod_eq_of_lt hsl
  have hk := hmacKey_ok a key hv hb hkl
  show hmacInternal nat20Ctx.digest (List.replicate 128 0) (List.replicate 64 0) (algId a) key (some g) (some d) (some sz) = _
  simp only [hmacInternal, if_neg h1, if_neg h2, if_neg h3, hk]
  show hmacBody nat20Ctx.digest (algId a) (hmacBlock (algId a)) (UInt64.ofNat a.size) (hmacKeyBlock a key.bytes ++ List.replicate (128 - a.block) 0)
    (List.replicate 64 0) (some g) (some d) sz = _
  simp only [hmacBody, if_neg h4]
  rw [hmacXor_ok a _ _ _ hKl]
  have hd1 := digest_two a (hmacBlock (algId a)) ((hmacKeyBlock a key.bytes).map (· ^^^ 0x36)) (List.replicate (128 - a.block) 0)
    (by simp [hKl, hbl]) g hg hl hs (by simp [hKl, hm]) (List.replicate 64 0) (UInt64.ofNat a.size) (by omega) (by simp; omega)
  rw [hd1]
  show hmacOuter nat20Ctx.digest (algId a) (hmacBlock (algId a)) (UInt64.ofNat a.size)
    ((hmacKeyBlock a key.bytes).map (· ^^^ 0x36) ++ List.replicate (128 - a.block) 0)
    (sha2 a ((hmacKeyBlock a key.bytes).map (· ^^^ 0x36) ++ g.bytes) ++ (List.replicate 64 0).drop a.size) (some d) sz = _
  unfold hmacOuter
  rw [hmacXor_ok a _ _ _ (by simp [hKl]), xor_pads]
  have hib : (⟨1, some [⟨UInt64.ofNat a.size, localPtr (sha2 a ((hmacKeyBlock a key.bytes).map (· ^^^ 0x36) ++ g.bytes) ++ (List.replicate 64 0).drop a.size)⟩]⟩ : GatherList).bytes =
      sha2 a ((hmacKeyBlock a key.bytes).map (· ^^^ 0x36) ++ g.bytes) := by
    show [Slice.bytes _].flatten = _
    rw [List.flatten_cons, List.flatten_nil, List.append_nil, localSlice_bytes _ _ _ (by rw [sha2_length, hszN])]
  have hd2 := digest_two a (hmacBlock (algId a)) ((hmacKeyBlock a key.bytes).map (· ^^^ 0x5c)) (List.replicate (128 - a.block) 0)
    (by simp [hKl, hbl])
    ⟨1, some [⟨UInt64.ofNat a.size, localPtr (sha2 a ((hmacKeyBlock a key.bytes).map (· ^^^ 0x36) ++ g.bytes) ++ (List.replicate 64 0).drop a.size)⟩]⟩
    (by
      refine ⟨fun l hl => ?_, fun s hs => ?_⟩
      · simp only [Option.some.injEq] at hl; subst hl; simp
      · simp [GatherList.slices] at hs; subst hs; exact localSlice_valid _ _ (by rw [hszN, List.length_append, sha2_length]; omega))
    (by intro h; simp at h)
    (by intro s hs hn; simp [GatherList.slices] at hs; subst hs; simp [localPtr] at hn)
    (by rw [hib, sha2_length, List.length_map, hKl]; omega) d sz hsz hd
  rw [hd2, hib]
  rfl

/-! ## HKDF -/

theorem hmac_length (a : Alg) (k m : Bytes) : (hmac a k m).length = a.size := by unfold hmac; exact sha2_length _ _

theorem hkdfT_length (a : Alg) (prk info : Bytes) (i : Nat) : (hkdfT a prk info (i + 1)).length = a.size := by
  rw [hkdfT]; exact hmac_length _ _ _

theorem hkdfBlocks_succ (a : Alg) (prk info : Bytes) (n : Nat) : hkdfBlocks a prk info (n + 1) = hkdfBlocks a prk info n ++ hkdfT a prk info (n + 1) := by
  unfold hkdfBlocks
  rw [List.range_succ, List.map_append, List.flatten_append]
  simp

theorem hkdfBlocks_length (a : Alg) (prk info : Bytes) (n : Nat) : (hkdfBlocks a prk info n).length = n * a.size := by
  induction n with
  | zero => simp [hkdfBlocks]
  | succ n ih => rw [hkdfBlocks_succ, List.length_append, ih, hkdfT_length, Nat.add_mul, Nat.one_mul]

/-- The state of the loop after `k` blocks. -/
def expandAt (a : Alg) (prk info : Bytes) (L : UInt64) (mem0 : Bytes) (k : Nat) : ExpandState :=
  ⟨L - UInt64.ofNat (k * a.size), UInt64.ofNat a.size, hkdfBlocks a prk info k ++ mem0.drop (k * a.size), k * a.size,
    if k = 0 then none else some ((k - 1) * a.size, UInt64.ofNat a.size), UInt8.ofNat (k + 1)⟩

theorem expandInput_ok (a : Alg) (prk : Bytes) (info : Slice) (hv : info.Valid) (hn : info.buffer = none → info.size = 0) (L : UInt64) (mem0 : Bytes) (k : Nat) :
    let s := expandAt a prk info.bytes L mem0 k
    let g := expandInput s.mem s.prev info s.i
    g.Valid ∧ g.NoNullList ∧ g.NoNullSlice ∧ g.bytes = hkdfT a prk info.bytes k ++ info.bytes ++ [UInt8.ofNat (k + 1)] := by
  have hsl := size_lt a
  have hszN : (UInt64.ofNat a.size).toNat = a.size := by rw [UInt64.toNat_ofNat']; exact Nat.mod_eq_of_lt hsl
  simp only
  have hci : (⟨1, localPtr [UInt8.ofNat (k + 1)]⟩ : Slice).bytes = [UInt8.ofNat (k + 1)] := rfl
  have hcv : (⟨1, localPtr [UInt8.ofNat (k + 1)]⟩ : Slice).Valid := localSlice_valid _ _ (by simp)
  have main : ∀ first : Slice, first.Valid → (first.buffer = none → first.size = 0) → first.bytes = hkdfT a prk info.bytes k →
      let g : GatherList := ⟨3, some [first, info, ⟨1, localPtr [UInt8.ofNat (k + 1)]⟩]⟩
      g.Valid ∧ g.NoNullList ∧ g.NoNullSlice ∧ g.bytes = hkdfT a prk info.bytes k ++ info.bytes ++ [UInt8.ofNat (k + 1)] := by
    intro first h1 h2 h3
    have hsl : (⟨3, some [first, info, ⟨1, localPtr [UInt8.ofNat (k + 1)]⟩]⟩ : GatherList).slices = [first, info, ⟨1, localPtr [UInt8.ofNat (k + 1)]⟩] := rfl
    refine ⟨⟨fun l hl => ?_, fun s hs => ?_⟩, fun h => by simp at h, fun s hs hb => ?_, ?_⟩
    · simp only [Option.some.injEq] at hl; subst hl; simp
    · rw [hsl] at hs
      simp only [List.mem_cons, List.not_mem_nil, or_false] at hs
      rcases hs with rfl | rfl | rfl <;> assumption
    · rw [hsl] at hs
      simp only [List.mem_cons, List.not_mem_nil, or_false] at hs
      rcases hs with rfl | rfl | rfl
      · exact h2 hb
      · exact hn hb
      · simp [localPtr] at hb
    · unfold GatherList.bytes
      rw [hsl]
      simp only [List.map_cons, List.map_nil, List.flatten_cons, List.flatten_nil, List.append_nil, h3, hci, List.append_assoc]
  cases k with
  | zero =>
    refine main ⟨0, none⟩ (fun p hp => by simp at hp) (fun _ => rfl) ?_
    simp [Slice.bytes, hkdfT]
  | succ k =>
    have hk : (expandAt a prk info.bytes L mem0 (k + 1)).prev = some (k * a.size, UInt64.ofNat a.size) := by
      simp [expandAt]
    rw [hk]
    have hmem : (expandAt a prk info.bytes L mem0 (k + 1)).mem.drop (k * a.size) = hkdfT a prk info.bytes (k + 1) ++ mem0.drop ((k + 1) * a.size) := by
      simp only [expandAt, hkdfBlocks_succ]
      rw [List.append_assoc, List.drop_append_of_le_length (by rw [hkdfBlocks_length]; exact Nat.le_refl _),
        List.drop_of_length_le (by rw [hkdfBlocks_length]; exact Nat.le_refl _), List.nil_append]
    refine main ⟨UInt64.ofNat a.size, some ⟨_, _⟩⟩ ?_ (fun h => by simp at h) ?_
    · intro p hp
      simp only [Option.some.injEq] at hp
      subst hp
      simp only [hmem, List.length_append, hkdfT_length, hszN]
      omega
    · show (List.drop (k * a.size) _).take (UInt64.ofNat a.size).toNat = _
      rw [hmem, hszN]
      rw [List.take_append_of_le_length (by rw [hkdfT_length]; exact Nat.le_refl _), List.take_of_length_le (by rw [hkdfT_length]; exact Nat.le_refl _)]

section
variable (a : Alg) (prk info : Slice) (hpv : prk.Valid) (hpb : prk.buffer ≠ none) (hpl : prk.bytes.length < 2 ^ 61) (hv : info.Valid)
  (hn : info.buffer = none → info.size = 0) (hil : 256 + info.bytes.length < 2 ^ 61) (L : UInt64) (mem0 : Bytes) (hL : L.toNat ≤ mem0.length)

theorem hkdfT_length_le (a : Alg) (prk info : Bytes) (k : Nat) : (hkdfT a prk info k).length ≤ a.size := by
  cases k with
  | zero => simp [hkdfT]
  | succ k => rw [hkdfT_length]; exact Nat.le_refl _

include hpv hpb hpl hv hn hil in
theorem expandHmac_ok (k : Nat) (d : Bytes) (hd : a.size ≤ d.length) :
    nat20Ctx.hmac (algId a) prk (some (expandInput (expandAt a prk.bytes info.bytes L mem0 k).mem (expandAt a prk.bytes info.bytes L mem0 k).prev info
      (expandAt a prk.bytes info.bytes L mem0 k).i)) (some d) (some (UInt64.ofNat a.size)) =
      .ok ⟨.ok, some (hkdfT a prk.bytes info.bytes (k + 1) ++ d.drop a.size), some (UInt64.ofNat a.size)⟩ := by
  obtain ⟨g1, g2, g3, g4⟩ := expandInput_ok a prk.bytes info hv hn L mem0 k
  have hsl := size_lt a
  have hszN : (UInt64.ofNat a.size).toNat = a.size := by rw [UInt64.toNat_ofNat']; exact Nat.mod_eq_of_lt hsl
  have hbl := block_le_128 a
  have h64 := size_le_64 a
  have hT := hkdfT_length_le a prk.bytes info.bytes k
  have := nat20_hmac_ok a prk hpv hpb hpl _ g1 g2 g3 (by rw [g4]; simp only [List.length_append, List.length_singleton]; omega) d (UInt64.ofNat a.size)
    (by rw [hszN]; exact Nat.le_refl _) hd
  rw [this, g4, hkdfT]

include hpv hpb hpl hv hn hil hL in
theorem expandStep_ok (k : Nat) (hk : (k + 1) * a.size ≤ L.toNat) :
    expandStep nat20Ctx.hmac (algId a) prk info (expandAt a prk.bytes info.bytes L mem0 k) = .ok (expandAt a prk.bytes info.bytes L mem0 (k + 1)) := by
  have hsl := size_lt a
  have hszN : (UInt64.ofNat a.size).toNat = a.size := by rw [UInt64.toNat_ofNat']; exact Nat.mod_eq_of_lt hsl
  have hmul : (k + 1) * a.size = k * a.size + a.size := by rw [Nat.add_mul, Nat.one_mul]
  have hLlt := L.toNat_lt
  have hdrop : (expandAt a prk.bytes info.bytes L mem0 k).mem.drop (expandAt a prk.bytes info.bytes L mem0 k).off = mem0.drop (k * a.size) := by
    simp only [expandAt]
    rw [List.drop_append_of_le_length (by rw [hkdfBlocks_length]; exact Nat.le_refl _),
        List.drop_of_length_le (by rw [hkdfBlocks_length]; exact Nat.le_refl _), List.nil_append]
  have htake : (expandAt a prk.bytes info.bytes L mem0 k).mem.take (expandAt a prk.bytes info.bytes L mem0 k).off = hkdfBlocks a prk.bytes info.bytes k := by
    simp only [expandAt]
    rw [List.take_append_of_le_length (by rw [hkdfBlocks_length]; exact Nat.le_refl _),
        List.take_of_length_le (by rw [hkdfBlocks_length]; exact Nat.le_refl _)]
  have hds : (expandAt a prk.bytes info.bytes L mem0 k).digestSize = UInt64.ofNat a.size := rfl
  unfold expandStep
  rw [hdrop, hds, htake, expandHmac_ok a prk info hpv hpb hpl hv hn hil L mem0 k (mem0.drop (k * a.size)) (by rw [List.length_drop]; omega)]
  simp only [expandAt, bind, Except.bind, Option.getD_some]
  congr 2
  · rw [hmul, UInt64.ofNat_add]
    generalize UInt64.ofNat (k * a.size) = x
    generalize UInt64.ofNat a.size = y
    rw [UInt64.sub_eq_add_neg, UInt64.sub_eq_add_neg, UInt64.sub_eq_add_neg, UInt64.neg_add, UInt64.sub_eq_add_neg, UInt64.add_assoc]
  · rw [hkdfBlocks_succ, List.drop_drop, List.append_assoc, hmul]
  · rw [hszN, hmul]
  · exact (UInt8.ofNat_add (k + 1) 1).symm

include hpv hpb hpl hv hn hil hL in
theorem expandLoop_ok (n : Nat) : ∀ (k fuel : Nat), n < fuel → (k + n) * a.size ≤ L.toNat → L.toNat < (k + n + 1) * a.size →
    expandLoop nat20Ctx.hmac (algId a) prk info fuel (expandAt a prk.bytes info.bytes L mem0 k) = .ok (expandAt a prk.bytes info.bytes L mem0 (k + n)) := by
  have hsl := size_lt a
  have hszN : (UInt64.ofNat a.size).toNat = a.size := by rw [UInt64.toNat_ofNat']; exact Nat.mod_eq_of_lt hsl
  have hLlt := L.toNat_lt
  have hkey : ∀ k, k * a.size ≤ L.toNat → (expandAt a prk.bytes info.bytes L mem0 k).keyOctets.toNat = L.toNat - k * a.size := by
    intro k hk
    have e : (UInt64.ofNat (k * a.size)).toNat = k * a.size := by rw [UInt64.toNat_ofNat']; exact Nat.mod_eq_of_lt (by omega)
    simp only [expandAt]
    rw [UInt64.toNat_sub_of_le _ _ (UInt64.le_iff_toNat_le.2 (by omega)), e]
  induction n with
  | zero =>
    intro k fuel hf h1 h2
    cases fuel with
    | zero => omega
    | succ fuel =>
      rw [expandLoop, if_neg]
      · rfl
      · intro h
        have := UInt64.le_iff_toNat_le.1 h
        rw [hkey k (by simpa using h1)] at this
        have hds : (expandAt a prk.bytes info.bytes L mem0 k).digestSize = UInt64.ofNat a.size := rfl
        rw [hds, hszN] at this
        simp only [Nat.add_zero, Nat.add_mul, Nat.one_mul] at h1 h2
        omega
  | succ n ih =>
    intro k fuel hf h1 h2
    cases fuel with
    | zero => omega
    | succ fuel =>
      have hk1 : (k + 1) * a.size ≤ L.toNat := Nat.le_trans (Nat.mul_le_mul_right _ (by omega)) h1
      have hmul : (k + 1) * a.size = k * a.size + a.size := by rw [Nat.add_mul, Nat.one_mul]
      rw [expandLoop, if_pos]
      · rw [expandStep_ok a prk info hpv hpb hpl hv hn hil L mem0 hL k hk1]
        show expandLoop nat20Ctx.hmac (algId a) prk info fuel (expandAt a prk.bytes info.bytes L mem0 (k + 1)) = _
        have e : k + (n + 1) = (k + 1) + n := by omega
        rw [e] at h1 h2 ⊢
        exact ih (k + 1) fuel (by omega) h1 h2
      · apply UInt64.le_iff_toNat_le.2
        rw [hkey k (by omega)]
        have hds : (expandAt a prk.bytes info.bytes L mem0 k).digestSize = UInt64.ofNat a.size := rfl
        rw [hds, hszN]
        omega

include hpv hpb hpl hv hn hil hL in
/-- The output of the native HKDF-Expand, for every length. -/
theorem nat20_expand_ok :
    nat20Ctx.hkdfExpand (algId a) prk info L (some mem0) =
      .ok (.ok, some ((hkdfBlocks a prk.bytes info.bytes ((L.toNat + a.size - 1) / a.size)).take L.toNat ++ mem0.drop L.toNat)) := by
  have hsl := size_lt a
  have hsp := size_pos a
  have h64 := size_le_64 a
  have hszN : (UInt64.ofNat a.size).toNat = a.size := by rw [UInt64.toNat_ofNat']; exact Nat.mod_eq_of_lt hsl
  have hLlt := L.toNat_lt
  have h1 : digestEnumToSize (algId a) ≠ 0 := by cases a <;> decide
  have h2 : ¬ (prk.buffer = none ∧ prk.size ≠ 0) := fun h => hpb h.1
  have h3 : ¬ (info.buffer = none ∧ info.size ≠ 0) := fun h => h.2 (hn h.1)
  show n20HkdfExpand (some nat20Ctx.hmac) (algId a) prk info L (some mem0) = _
  simp only [n20HkdfExpand, if_neg h1, if_neg h2, if_neg h3]
  by_cases hz : L = 0
  · subst hz
    rw [if_pos rfl]
    simp
  rw [if_neg hz]
  have hLpos : 0 < L.toNat := by
    rcases Nat.eq_zero_or_pos L.toNat with h | h
    · exact absurd (UInt64.toNat_inj.1 h) hz
    · exact h
  obtain ⟨k, r, hk⟩ : ∃ k r, L.toNat = k * a.size + r ∧ r < a.size :=
    ⟨L.toNat / a.size, L.toNat % a.size, by rw [Nat.mul_comm]; exact (Nat.div_add_mod _ _).symm, Nat.mod_lt _ hsp⟩
  obtain ⟨hk, hr⟩ := hk
  have hkle : k ≤ k * a.size := Nat.le_mul_of_pos_right k hsp
  have hloop := expandLoop_ok a prk info hpv hpb hpl hv hn hil L mem0 hL k 0 (L.toNat + 1) (by omega) (by rw [Nat.zero_add]; omega)
    (by rw [Nat.zero_add, Nat.add_mul, Nat.one_mul]; omega)
  have hinit : (⟨L, digestEnumToSize (algId a), mem0, 0, none, 1⟩ : ExpandState) = expandAt a prk.bytes info.bytes L mem0 0 := by
    simp [expandAt, digestEnumToSize_algId, hkdfBlocks]
  rw [hinit, hloop, Nat.zero_add]
  show expandRest nat20Ctx.hmac (algId a) prk info (expandAt a prk.bytes info.bytes L mem0 k) = _
  have hkey : (expandAt a prk.bytes info.bytes L mem0 k).keyOctets.toNat = r := by
    have e : (UInt64.ofNat (k * a.size)).toNat = k * a.size := by rw [UInt64.toNat_ofNat']; exact Nat.mod_eq_of_lt (by omega)
    simp only [expandAt]
    rw [UInt64.toNat_sub_of_le _ _ (UInt64.le_iff_toNat_le.2 (by omega)), e]
    omega
  have hmem : (expandAt a prk.bytes info.bytes L mem0 k).mem = hkdfBlocks a prk.bytes info.bytes k ++ mem0.drop (k * a.size) := rfl
  have hbl := hkdfBlocks_length a prk.bytes info.bytes k
  unfold expandRest
  by_cases hr0 : r = 0
  · subst hr0
    rw [if_neg (by
      intro h
      have := UInt64.lt_iff_toNat_lt.1 h
      rw [hkey] at this
      simp at this)]
    have hN : (L.toNat + a.size - 1) / a.size = k := by
      rw [hk]
      have e : k * a.size + 0 + a.size - 1 = a.size * k + (a.size - 1) := by rw [Nat.mul_comm]; omega
      rw [e, Nat.mul_add_div hsp, Nat.div_eq_of_lt (by omega)]
      rfl
    rw [hN, hmem, List.take_of_length_le (by omega)]
    have : k * a.size = L.toNat := by omega
    rw [this]
  · rw [if_pos (UInt64.lt_iff_toNat_lt.2 (by rw [hkey]; show 0 < r; omega))]
    have hN : (L.toNat + a.size - 1) / a.size = k + 1 := by
      rw [hk]
      have e : k * a.size + r + a.size - 1 = a.size * (k + 1) + (r - 1) := by rw [Nat.mul_add, Nat.mul_comm]; omega
      rw [e, Nat.mul_add_div hsp, Nat.div_eq_of_lt (by omega)]
    have hds : (expandAt a prk.bytes info.bytes L mem0 k).digestSize = UInt64.ofNat a.size := rfl
    simp only [hds]
    rw [expandHmac_ok a prk info hpv hpb hpl hv hn hil L mem0 k (List.replicate 64 0) (by simp; omega)]
    have hoff : (expandAt a prk.bytes info.bytes L mem0 k).off = k * a.size := rfl
    have hoffN : (UInt64.ofNat (k * a.size)).toNat = k * a.size := by rw [UInt64.toNat_ofNat']; exact Nat.mod_eq_of_lt (by omega)
    have hTl := hkdfT_length a prk.bytes info.bytes k
    simp only [hoff, bind, Except.bind, Option.getD_some, if_true, memcpy, localPtr, hkey, hoffN]
    rw [if_neg (by rw [List.length_append, hTl]; omega), if_neg (by rw [hmem, List.length_append, hbl, List.length_drop]; omega), hmem, hN, hkdfBlocks_succ]
    simp only [Except.ok.injEq, Prod.mk.injEq, true_and, Option.some.injEq]
    have t1 : (hkdfBlocks a prk.bytes info.bytes k ++ mem0.drop (k * a.size)).take (k * a.size) = hkdfBlocks a prk.bytes info.bytes k := by
      rw [List.take_append_of_le_length (by omega), List.take_of_length_le (by omega)]
    have t2 : (hkdfT a prk.bytes info.bytes (k + 1) ++ (List.replicate 64 0).drop a.size).take r = (hkdfT a prk.bytes info.bytes (k + 1)).take r :=
      List.take_append_of_le_length (by omega)
    have t3 : (hkdfBlocks a prk.bytes info.bytes k ++ mem0.drop (k * a.size)).drop (k * a.size + r) = mem0.drop L.toNat := by
      rw [List.drop_append, List.drop_of_length_le (by omega), List.nil_append, hbl, List.drop_drop]
      congr 1
      omega
    have t4 : (hkdfBlocks a prk.bytes info.bytes k ++ hkdfT a prk.bytes info.bytes (k + 1)).take L.toNat =
        hkdfBlocks a prk.bytes info.bytes k ++ (hkdfT a prk.bytes info.bytes (k + 1)).take r := by
      rw [List.take_append, List.take_of_length_le (by omega), hbl]
      congr 2
      omega
    rw [t1, t2, t3, t4]

end

end Nat20

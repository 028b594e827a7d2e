import Verif.Lemmas.Arena
import Verif.Lemmas.Eval
/-!
# C70: output buffers that overlap with inputs

A caller may want to replace a message by its digest, or a key by a key derived from it, in place.  `digest`, `hmac` and `hkdf_extract` read all their
inputs before they write; `hkdf_expand` and `hkdf` read the pseudorandom key and the info again for every block.
-/

namespace Nat20

open Fips

/-- The octets of the first `count` gather lists. -/
def messageBytes (m : Memory) (msg : List MList) (count : UInt64) : Bytes := ((msg.take count.toNat).map (MList.bytes m)).flatten

theorem ofCaller_notHmac (s : MSlice) (h : s.OfCaller) : s.NotHmac := by
  intro a ha
  obtain ⟨n, hn⟩ := h a ha
  exact ⟨by rw [hn]; simp, by rw [hn]; simp⟩

theorem ofCaller_notExpand (s : MSlice) (h : s.OfCaller) : s.NotExpand := by
  intro a ha
  obtain ⟨n, hn⟩ := h a ha
  exact ⟨by rw [hn]; simp, by rw [hn]; simp, by rw [hn]; simp, by rw [hn]; simp⟩

theorem room_notExpand (m : Memory) (a : Addr) (n : Nat) (h : a.Room m n) : a.NotExpand := by
  obtain ⟨⟨k, hk⟩, -⟩ := h
  exact ⟨by rw [hk]; simp, by rw [hk]; simp, by rw [hk]; simp, by rw [hk]; simp⟩

theorem room_notHmac (m : Memory) (a : Addr) (n : Nat) (h : a.Room m n) : a.NotHmac := ⟨(room_notExpand m a n h).1, (room_notExpand m a n h).2.1⟩

/-- **C70** (digest).  Wherever the slices of the message and the output are, also if they overlap: the digest is that of the message as it was before the call,
it is written to the output, and the rest of the memory is the same. -/
theorem C70_digest (a : Alg) (m : Memory) (msg : List MList) (count : UInt64) (hne : msg ≠ []) (hc : count.toNat ≤ msg.length)
    (hr : ∀ g ∈ msg.take count.toNat, g.Readable m) (h0 : ∀ g ∈ msg.head?, g.list = none → g.count = 0) (hl : (messageBytes m msg count).length < 2 ^ 61)
    (out : Addr) (sz : UInt64) (hsz : a.size ≤ sz.toNat) (ho : out.Room m sz.toNat) :
    digestAt m (algId a) (some msg) count (some out) (some sz) = .ok ⟨.ok, m.write out (sha2 a (messageBytes m msg count)), some (UInt64.ofNat a.size)⟩ := by
  have hroom := ho.2
  have hmsg : messageOf (msg.map (MList.fetch m)) count = messageBytes m msg count := by
    unfold messageOf messageBytes
    rw [← List.map_take, List.map_map]
    congr 1
    exact List.map_congr_left fun g _ => fetchList_bytes m g
  rw [digestAt_eq]
  simp only [Option.map_some]
  rw [nat20_digest_ok a (msg.map (MList.fetch m)) count (by simpa using hne) (by simpa using hc)
    (fun g hg => by
      rw [← List.map_take, List.mem_map] at hg
      obtain ⟨x, hx, rfl⟩ := hg
      exact fetchList_valid m x (hr x hx))
    (fun g hg hn => by
      rw [List.head?_map] at hg
      obtain ⟨x, hx, rfl⟩ := Option.map_eq_some_iff.1 hg
      exact h0 x hx (by simpa [MList.fetch] using hn))
    (by rw [hmsg]; exact hl) (m.tail out) sz hsz (by simp only [Memory.tail, List.length_drop]; omega)]
  simp only [Except.map, Reply.at, hmsg, put_write m out _ a.size (sha2_length _ _)]

/-- **C70** (digest, all arguments).  With whatever arguments, `digest` does what it does for separate buffers with the contents the memory had before the call. -/
theorem C70_digest_all (m : Memory) (alg : UInt32) (msg : Option (List MList)) (count : UInt64) (out : Option Addr) (size : Option UInt64) :
    digestAt m alg msg count out size =
      (nat20Ctx.digest alg (msg.map fun l => l.map (MList.fetch m)) count (out.map m.tail) size).map fun r => ⟨r.err, m.put out r.out, r.size⟩ :=
  digestAt_eq m alg msg count out size

/-- **C70** (hmac).  The output may overlap with the key and with the message. -/
theorem C70_hmac (a : Alg) (m : Memory) (key : MSlice) (hk : key.OfCaller) (hkr : key.Readable m) (hkb : key.addr ≠ none) (hkl : (key.bytes m).length < 2 ^ 61)
    (g : MList) (hg : g.OfCaller) (hgr : g.Readable m) (hgl : 128 + (g.bytes m).length < 2 ^ 61) (out : Addr) (sz : UInt64) (hsz : a.size ≤ sz.toNat)
    (ho : out.Room m sz.toNat) :
    hmacAt m (algId a) key (some g) (some out) (some sz) = .ok ⟨.ok, m.write out (hmac a (key.bytes m) (g.bytes m)), some (UInt64.ofNat a.size)⟩ := by
  have hroom := ho.2
  have hb := block_le_128 a
  exact hmacAt_ok a m key (ofCaller_notHmac key hk) hkr hkb hkl g (fun s hs => ofCaller_notHmac s (hg s hs)) hgr (by omega) out (room_notHmac m out _ ho) (by omega) sz hsz

/-- **C70** (hmac, all arguments). -/
theorem C70_hmac_all (m : Memory) (alg : UInt32) (key : MSlice) (hk : key.OfCaller) (msg : Option MList) (hm : ∀ g, msg = some g → g.OfCaller)
    (out : Option Addr) (ho : ∀ a, out = some a → ∃ n, a.region = .caller n) (size : Option UInt64) :
    hmacAt m alg key msg out size =
      (nat20Ctx.hmac alg (key.fetch m) (msg.map (MList.fetch m)) (out.map m.tail) size).map fun r => ⟨r.err, m.put out r.out, r.size⟩ :=
  hmacAt_eq m alg key (ofCaller_notHmac key hk) msg (fun g hg s hs => ofCaller_notHmac s (hm g hg s hs)) out
    (fun a ha => by obtain ⟨n, hn⟩ := ho a ha; exact ⟨by rw [hn]; simp, by rw [hn]; simp⟩) size

/-- **C70** (extract).  The pseudorandom key may be written over the input key material or the salt. -/
theorem C70_extract (a : Alg) (m : Memory) (ikm salt : MSlice) (hi : ikm.OfCaller) (hir : ikm.Readable m) (hil : 128 + (ikm.bytes m).length < 2 ^ 61)
    (hs : salt.OfCaller) (hsr : salt.Readable m) (hsb : salt.addr ≠ none) (hsl : (salt.bytes m).length < 2 ^ 61) (out : Addr) (sz : UInt64)
    (hsz : a.size ≤ sz.toNat) (ho : out.Room m sz.toNat) :
    extractAt m (algId a) ikm salt (some out) (some sz) = .ok ⟨.ok, m.write out (hkdfExtract a (salt.bytes m) (ikm.bytes m)), some (UInt64.ofNat a.size)⟩ := by
  have hroom := ho.2
  obtain ⟨v1, v2⟩ := fetch_valid m ikm hir
  obtain ⟨w1, w2⟩ := fetch_valid m salt hsr
  rw [extractAt_eq m _ ikm salt (ofCaller_notHmac ikm hi) (ofCaller_notHmac salt hs) _
    (fun x hx => by simp only [Option.some.injEq] at hx; subst hx; exact room_notHmac m out _ ho)]
  simp only [Option.map_some]
  rw [C44_extract_partial a (ikm.fetch m) (salt.fetch m) v1 v2 w1 (fetch_buffer m salt hsb) (by rw [fetch_bytes]; exact hsl) (by rw [fetch_bytes]; exact hil)
    (m.tail out) sz hsz (by simp only [Memory.tail, List.length_drop]; omega)]
  simp only [Except.map, Reply.at, fetch_bytes]
  rw [put_write m out _ a.size (by rw [hkdfExtract_eq, hmac_length])]

/-- **C70** (expand).  The pseudorandom key and the info may overlap with the last block of the output, but not with the blocks before: then the output is that of
RFC 5869 for the pseudorandom key and info as they were before the call, and the rest of the memory is the same. -/
theorem C70_expand_partial (a : Alg) (m : Memory) (prk info : MSlice) (hp : prk.OfCaller) (hpr : prk.Readable m) (hpb : prk.addr ≠ none) (hpl : (prk.bytes m).length < 2 ^ 61)
    (hi : info.OfCaller) (hir : info.Readable m) (hil : 256 + (info.bytes m).length < 2 ^ 61) (L : UInt64) (hL : L.toNat ≤ 255 * a.size) (out : Addr)
    (ho : out.Room m L.toNat) (hpa : prk.Avoids out (((L.toNat + a.size - 1) / a.size - 1) * a.size)) (hia : info.Avoids out (((L.toNat + a.size - 1) / a.size - 1) * a.size)) :
    ∃ okm, hkdfExpand a (prk.bytes m) (info.bytes m) L.toNat = some okm ∧
      hkdfExpandAt m (algId a) prk info L (some out) = .ok ⟨.ok, m.write out okm, none⟩ :=
  ⟨_, if_pos hL, hkdfExpandAt_ok ⟨ofCaller_notExpand prk hp, hpr, hpb, hpl, ofCaller_notExpand info hi, hir, hil, room_notExpand m out _ ho, ho.2, hpa, hia⟩⟩

/-- **C70** (one block).  Up to one digest, the output of expand may overlap with everything. -/
theorem C70_one_block (a : Alg) (m : Memory) (prk info : MSlice) (hp : prk.OfCaller) (hpr : prk.Readable m) (hpb : prk.addr ≠ none) (hpl : (prk.bytes m).length < 2 ^ 61)
    (hi : info.OfCaller) (hir : info.Readable m) (hil : 256 + (info.bytes m).length < 2 ^ 61) (L : UInt64) (hL : L.toNat ≤ a.size) (out : Addr)
    (ho : out.Room m L.toNat) :
    ∃ okm, hkdfExpand a (prk.bytes m) (info.bytes m) L.toNat = some okm ∧
      hkdfExpandAt m (algId a) prk info L (some out) = .ok ⟨.ok, m.write out okm, none⟩ := by
  have hsp := size_pos a
  have hN : ((L.toNat + a.size - 1) / a.size - 1) * a.size = 0 := by
    have : (L.toNat + a.size - 1) / a.size < 2 := by rw [Nat.div_lt_iff_lt_mul hsp]; omega
    have h2 : (L.toNat + a.size - 1) / a.size - 1 = 0 := by omega
    rw [h2, Nat.zero_mul]
  exact C70_expand_partial a m prk info hp hpr hpb hpl hi hir hil L (by omega) out ho (by rw [hN]; intro x _ _ i j _ hj; omega) (by rw [hN]; intro x _ _ i j _ hj; omega)

/-- **C70** (hkdf).  The input key material and the salt may overlap with the output; the info may overlap with its last block. -/
theorem C70_hkdf_partial (a : Alg) (m : Memory) (ikm salt info : MSlice) (hi : ikm.OfCaller) (hir : ikm.Readable m) (hil : 128 + (ikm.bytes m).length < 2 ^ 61)
    (hs : salt.OfCaller) (hsr : salt.Readable m) (hsb : salt.addr ≠ none) (hsl : (salt.bytes m).length < 2 ^ 61)
    (hf : info.OfCaller) (hfr : info.Readable m) (hfl : 256 + (info.bytes m).length < 2 ^ 61) (L : UInt64) (hL : L.toNat ≤ 255 * a.size) (out : Addr)
    (ho : out.Room m L.toNat) (hfa : info.Avoids out (((L.toNat + a.size - 1) / a.size - 1) * a.size)) :
    ∃ okm, hkdfExpand a (hkdfExtract a (salt.bytes m) (ikm.bytes m)) (info.bytes m) L.toNat = some okm ∧
      hkdfAt m (algId a) ikm salt info L (some out) = .ok ⟨.ok, m.write out okm, none⟩ := by
  have hsz := size_lt a
  have h64 := size_le_64 a
  have hroom := ho.2
  have hszN : (UInt64.ofNat a.size).toNat = a.size := by rw [UInt64.toNat_ofNat']; exact Nat.mod_eq_of_lt hsz
  have hne : ∀ s : MSlice, s.OfCaller → ∀ x, s.addr = some x → x.region ≠ .prk := by
    intro s hs x hx
    obtain ⟨n, hn⟩ := hs x hx
    rw [hn]
    simp
  have hon : out.region ≠ .prk := by
    obtain ⟨⟨n, hn⟩, -⟩ := ho
    rw [hn]
    simp
  -- the memory during the call
  have hbytes : ∀ s : MSlice, s.OfCaller → ∀ b, s.bytes (m.set .prk b) = s.bytes m := by
    intro s hs b
    rw [← fetch_bytes, ← fetch_bytes, fetch_congr m (m.set .prk b) s fun x hx => Memory.set_other _ _ _ _ (hne s hs x hx)]
  have hread : ∀ s : MSlice, s.OfCaller → s.Readable m → ∀ b, s.Readable (m.set .prk b) := by
    intro s hs hr b
    exact readable_length m _ s hr fun x hx => by rw [Memory.set_other _ _ _ _ (hne s hs x hx)]
  obtain ⟨v1, v2⟩ := fetch_valid _ ikm (hread ikm hi hir (List.replicate 64 0))
  obtain ⟨w1, w2⟩ := fetch_valid _ salt (hread salt hs hsr (List.replicate 64 0))
  have hex : extractAt (m.set .prk (List.replicate 64 0)) (algId a) ikm salt (some prkAddr) (some (digestEnumToSize (algId a))) =
      .ok ⟨.ok, m.set .prk (hkdfExtract a (salt.bytes m) (ikm.bytes m) ++ List.replicate (64 - a.size) 0), some (UInt64.ofNat a.size)⟩ := by
    rw [extractAt_eq _ _ ikm salt (ofCaller_notHmac ikm hi) (ofCaller_notHmac salt hs) _
      (fun x hx => by simp only [Option.some.injEq] at hx; subst hx; exact ⟨by decide, by decide⟩)]
    have ht : (m.set .prk (List.replicate 64 0)).tail prkAddr = List.replicate 64 0 := (Memory.tail_zero _ _).trans (Memory.set_same _ _ _)
    simp only [Option.map_some, ht]
    rw [C44_extract_partial a _ _ v1 v2 w1 (fetch_buffer _ salt hsb) (by rw [fetch_bytes, hbytes salt hs]; exact hsl)
      (by rw [fetch_bytes, hbytes ikm hi]; exact hil) (List.replicate 64 0) (digestEnumToSize (algId a)) (by rw [digestEnumToSize_toNat]; exact Nat.le_refl _)
      (by rw [digestEnumToSize_toNat]; simpa using h64)]
    simp only [Except.map, Reply.at, fetch_bytes, hbytes ikm hi, hbytes salt hs, Memory.put, List.drop_replicate]
    rw [show prkAddr = ⟨.prk, 0⟩ from rfl, Memory.store_zero, Memory.set_set]
  have hPl : (hkdfExtract a (salt.bytes m) (ikm.bytes m)).length = a.size := by rw [hkdfExtract_eq, hmac_length]
  have hprk : (⟨UInt64.ofNat a.size, some prkAddr⟩ : MSlice).bytes (m.set .prk (hkdfExtract a (salt.bytes m) (ikm.bytes m) ++ List.replicate (64 - a.size) 0)) =
      hkdfExtract a (salt.bytes m) (ikm.bytes m) := by
    generalize hkdfExtract a (salt.bytes m) (ikm.bytes m) = P at hPl
    simp only [MSlice.bytes, prkAddr, Memory.set_same, List.drop_zero, hszN]
    rw [List.take_append_of_le_length (by omega), List.take_of_length_le (by omega)]
  have hexp := hkdfExpandAt_ok (a := a) (m := m.set .prk (hkdfExtract a (salt.bytes m) (ikm.bytes m) ++ List.replicate (64 - a.size) 0))
    (prk := ⟨UInt64.ofNat a.size, some prkAddr⟩) (info := info) (L := L) (out := out)
    ⟨fun x hx => by simp only [Option.some.injEq] at hx; subst hx; exact ⟨by decide, by decide, by decide, by decide⟩,
      by simp only [MSlice.Readable, prkAddr, Memory.set_same, List.drop_zero, hszN, List.length_append, hPl]; omega,
      by simp, by rw [hprk, hPl]; omega, ofCaller_notExpand info hf, hread info hf hfr _, by rw [hbytes info hf]; exact hfl, room_notExpand m out _ ho,
      by rw [Memory.set_other _ _ _ _ hon]; exact hroom,
      fun x hx hr => by simp only [Option.some.injEq] at hx; subst hx; exact absurd hr.symm hon, hfa⟩
  refine ⟨_, if_pos hL, ?_⟩
  have h1 : digestEnumToSize (algId a) ≠ 0 := by cases a <;> decide
  have hnn : ∀ s : MSlice, s.Readable m → ¬ (s.addr = none ∧ s.size ≠ 0) := by
    rintro s hr ⟨x, y⟩
    unfold MSlice.Readable at hr
    rw [x] at hr
    exact y hr
  unfold hkdfAt
  rw [if_neg h1, if_neg (hnn ikm hir), if_neg (hnn salt hsr), if_neg (hnn info hfr)]
  simp only [Memory.withSecret, bury_wiped, wipe_set, hkdfStepsAt, hex, bind, Except.bind, if_true, Option.getD_some, hexp, hprk, hbytes info hf]
  rw [write_set _ _ _ _ _ hon, Memory.set_set, ← write_set _ _ _ _ _ hon, Memory.set_self]

/-! ## Expand in place -/

theorem notExpand_notHmac (s : MSlice) (h : s.NotExpand) : s.NotHmac := fun x hx => ⟨(h x hx).1, (h x hx).2.1⟩

/-- One round of the loop, whatever the memory. -/
theorem expandStep_any (a : Alg) (prk info : MSlice) (hp : prk.NotHmac) (hpb : prk.addr ≠ none) (hi : info.NotHmac) (s : ExpandAt) (hds : s.digestSize = UInt64.ofNat a.size)
    (hpr : prk.Readable s.mem) (hpl : (prk.bytes s.mem).length < 2 ^ 61) (hv : s.prev.NotHmac) (hvr : s.prev.Readable s.mem) (hir : info.Readable s.mem)
    (hl : 256 + (s.prev.bytes s.mem).length + (info.bytes s.mem).length < 2 ^ 61) (i : UInt8) (hc : s.mem .counter = [i]) (ho : s.out.NotHmac)
    (hor : s.out.off + a.size ≤ (s.mem s.out.region).length) :
    expandStepAt (algId a) prk info s =
      .ok ⟨s.keyOctets - UInt64.ofNat a.size, UInt64.ofNat a.size,
        (s.mem.write s.out (hmac a (prk.bytes s.mem) (s.prev.bytes s.mem ++ info.bytes s.mem ++ [i]))).count, ⟨s.out.region, s.out.off + a.size⟩,
        ⟨UInt64.ofNat a.size, some s.out⟩⟩ := by
  have hsl := size_lt a
  have hb := block_le_128 a
  have hszN : (UInt64.ofNat a.size).toNat = a.size := by rw [UInt64.toNat_ofNat']; exact Nat.mod_eq_of_lt hsl
  have c1 : (⟨1, some counterAddr⟩ : MSlice).bytes s.mem = [i] := by simp [MSlice.bytes, counterAddr, hc]
  have c2 : (⟨1, some counterAddr⟩ : MSlice).Readable s.mem := by simp [MSlice.Readable, counterAddr, hc]
  have hslices : (expandInputAt s.prev info).slices = [s.prev, info, ⟨1, some counterAddr⟩] := rfl
  have hbytes : (expandInputAt s.prev info).bytes s.mem = s.prev.bytes s.mem ++ info.bytes s.mem ++ [i] := by
    unfold MList.bytes
    rw [hslices]
    simp only [List.map_cons, List.map_nil, List.flatten_cons, List.flatten_nil, List.append_nil, List.append_assoc, c1]
  unfold expandStepAt
  rw [hds, hmacAt_ok a s.mem prk hp hpr hpb hpl (expandInputAt s.prev info)
    (fun x hx => by
      simp only [expandInputAt, Option.getD_some, List.mem_cons, List.not_mem_nil, or_false] at hx
      rcases hx with rfl | rfl | rfl
      · exact hv
      · exact hi
      · intro p hp
        simp only [Option.some.injEq] at hp
        subst hp
        exact ⟨by decide, by decide⟩)
    ⟨by simp [expandInputAt], fun x hx => by
      rw [hslices] at hx
      simp only [List.mem_cons, List.not_mem_nil, or_false] at hx
      rcases hx with rfl | rfl | rfl
      · exact hvr
      · exact hir
      · exact c2⟩
    (by rw [hbytes]; simp only [List.length_append, List.length_singleton]; omega) s.out ho hor _ (by rw [hszN]; exact Nat.le_refl _), hbytes]
  simp only [bind, Except.bind, Option.getD_some, hszN]

/-- What is read back from where it was written. -/
theorem bytes_written (m : Memory) (out : Addr) (x : Bytes) (n : UInt64) (hn : n.toNat = x.length) (hr : out.off + x.length ≤ (m out.region).length) :
    (⟨n, some out⟩ : MSlice).bytes (m.write out x) = x ∧ (⟨n, some out⟩ : MSlice).Readable (m.write out x) := by
  have h1 : (List.take out.off (m out.region)).length = out.off := by rw [List.length_take]; omega
  have hd : ((m.write out x) out.region).drop out.off = x ++ (m out.region).drop (out.off + x.length) := by
    simp only [Memory.write, if_true]
    rw [List.append_assoc, List.drop_append, List.drop_of_length_le (by omega), List.nil_append, h1, Nat.sub_self, List.drop_zero]
  constructor
  · simp only [MSlice.bytes]
    rw [hd, hn, List.take_append_of_le_length (Nat.le_refl _), List.take_of_length_le (Nat.le_refl _)]
  · simp only [MSlice.Readable]
    rw [hd, List.length_append]
    omega

/-- **C70** (violated by expand).  If two blocks are derived in place of the pseudorandom key, the second block is keyed with the first one instead of the
pseudorandom key.  It is the block RFC 5869 asks for only if the two keys happen to have the same HMAC. -/
theorem C70_expand_in_place (a : Alg) (m : Memory) (out : Addr) (info : MSlice) (hi : info.OfCaller) (hir : info.Readable m) (hil : 320 + (info.bytes m).length < 2 ^ 61)
    (ho : out.Room m (2 * a.size)) (hia : info.Avoids out (2 * a.size)) :
    let prk : MSlice := ⟨UInt64.ofNat a.size, some out⟩
    let first := hmac a (prk.bytes m) (info.bytes m ++ [1])
    let second := hmac a first (first ++ info.bytes m ++ [2])
    hkdfExpandAt m (algId a) prk info (UInt64.ofNat (2 * a.size)) (some out) = .ok ⟨.ok, m.write out (first ++ second), none⟩ ∧
    (hkdfExpand a (prk.bytes m) (info.bytes m) (2 * a.size) = some (first ++ second) ↔ second = hmac a (prk.bytes m) (first ++ info.bytes m ++ [2])) := by
  intro prk first second
  have hsl := size_lt a
  have hsp := size_pos a
  have h64 := size_le_64 a
  have hroom := ho.2
  have hone := room_notExpand m out _ ho
  have hszN : (UInt64.ofNat a.size).toNat = a.size := by rw [UInt64.toNat_ofNat']; exact Nat.mod_eq_of_lt hsl
  have h2N : (UInt64.ofNat (2 * a.size)).toNat = 2 * a.size := by rw [UInt64.toNat_ofNat']; exact Nat.mod_eq_of_lt (by omega)
  have hfl : first.length = a.size := hmac_length _ _ _
  have hsl2 : second.length = a.size := hmac_length _ _ _
  have hpN : prk.NotHmac := by
    intro x hx
    simp only [prk, Option.some.injEq] at hx
    subst hx
    exact ⟨hone.1, hone.2.1⟩
  have hiN := ofCaller_notHmac info hi
  have hiE := ofCaller_notExpand info hi
  have hcount : ∀ (M : Memory) (s : MSlice), s.NotExpand → ∀ b, s.bytes (M.set .counter b) = s.bytes M ∧ (s.Readable M → s.Readable (M.set .counter b)) := by
    intro M s hs b
    refine ⟨?_, fun hr => readable_length M _ s hr fun x hx => by rw [Memory.set_other _ _ _ _ (hs x hx).2.2.2]⟩
    rw [← fetch_bytes, ← fetch_bytes, fetch_congr M (M.set .counter b) s fun x hx => Memory.set_other _ _ _ _ (hs x hx).2.2.2]
  have hpE : prk.NotExpand := by
    intro x hx
    simp only [prk, Option.some.injEq] at hx
    subst hx
    exact hone
  have hprkR : prk.Readable m := by
    simp only [prk, MSlice.Readable, hszN, List.length_drop]
    omega
  have hprkL : (prk.bytes m).length < 2 ^ 61 := by
    simp only [prk, MSlice.bytes, List.length_take, hszN]
    omega
  constructor
  · have h1 : digestEnumToSize (algId a) ≠ 0 := by cases a <;> decide
    have h2 : ¬ (prk.addr = none ∧ prk.size ≠ 0) := fun x => by simp [prk] at x
    have h3 : ¬ (info.addr = none ∧ info.size ≠ 0) := by
      rintro ⟨x, y⟩
      unfold MSlice.Readable at hir
      rw [x] at hir
      exact y hir
    have h4 : UInt64.ofNat (2 * a.size) ≠ 0 := by
      intro h
      have := congrArg UInt64.toNat h
      rw [h2N] at this
      simp only [UInt64.toNat_zero] at this
      omega
    -- the two rounds
    have s1 := expandStep_any a prk info hpN (by simp [prk]) hiN ⟨UInt64.ofNat (2 * a.size), UInt64.ofNat a.size, m.set .counter [1], out, ⟨0, none⟩⟩ rfl
      ((hcount m prk hpE _).2 hprkR) (by rw [(hcount m prk hpE _).1]; exact hprkL) (fun x hx => by simp at hx) rfl ((hcount m info hiE _).2 hir)
      (by simp only [MSlice.bytes.eq_def (m.set Region.counter [1]) ⟨0, none⟩, (hcount m info hiE _).1, List.length_nil]; omega) 1 (Memory.set_same m .counter [1]) ⟨hone.1, hone.2.1⟩
      (by
        show out.off + a.size ≤ (m.set .counter [1] out.region).length
        rw [Memory.set_other _ _ _ _ hone.2.2.2]
        omega)
    have hb0 : (⟨0, none⟩ : MSlice).bytes (m.set .counter [1]) = [] := rfl
    simp only [(hcount m prk hpE _).1, (hcount m info hiE _).1, hb0, List.nil_append] at s1
    have hm1 : ((m.set .counter [1]).write out first).count = (m.write out first).set .counter [2] := by
      unfold Memory.count
      rw [write_set _ _ _ _ _ hone.2.2.2, Memory.set_same, Memory.set_set]
      rfl
    rw [show hmac a (prk.bytes m) (info.bytes m ++ [1]) = first from rfl, hm1] at s1
    obtain ⟨w1, w2⟩ := bytes_written m out first (UInt64.ofNat a.size) (by rw [hszN, hfl]) (by omega)
    have hib : info.bytes (m.write out first) = info.bytes m := bytes_write m out first info (avoids_mono info out _ _ hia (by omega)) (by omega)
    have hirw : info.Readable (m.write out first) := readable_length m _ info hir fun x _ => write_length _ _ _ (by omega) _
    have hkey1 : UInt64.ofNat (2 * a.size) - UInt64.ofNat a.size = UInt64.ofNat a.size := by
      apply UInt64.toNat_inj.1
      rw [UInt64.toNat_sub_of_le _ _ (UInt64.le_iff_toNat_le.2 (by omega)), h2N, hszN]
      omega
    rw [hkey1] at s1
    have s2 := expandStep_any a prk info hpN (by simp [prk]) hiN
      ⟨UInt64.ofNat a.size, UInt64.ofNat a.size, (m.write out first).set .counter [2], ⟨out.region, out.off + a.size⟩, ⟨UInt64.ofNat a.size, some out⟩⟩ rfl
      ((hcount _ prk hpE _).2 w2) (by rw [(hcount _ prk hpE _).1, w1, hfl]; omega) hpN ((hcount _ prk hpE _).2 w2) ((hcount _ info hiE _).2 hirw)
      (by
        show 256 + (prk.bytes _).length + _ < _
        rw [(hcount _ prk hpE _).1, (hcount _ info hiE _).1, w1, hfl, hib]
        omega)
      2 (Memory.set_same (m.write out first) .counter [2]) ⟨hone.1, hone.2.1⟩ (by
        show out.off + a.size + a.size ≤ ((m.write out first).set .counter [2] out.region).length
        rw [Memory.set_other _ _ _ _ hone.2.2.2, write_length _ _ _ (by omega)]
        omega)
    simp only at s2
    rw [show (⟨UInt64.ofNat a.size, some out⟩ : MSlice) = prk from rfl, (hcount _ prk hpE _).1, (hcount _ info hiE _).1, w1, hib] at s2
    have hm2 : (((m.write out first).set .counter [2]).write ⟨out.region, out.off + a.size⟩ second).count = (m.write out (first ++ second)).set .counter [3] := by
      unfold Memory.count
      have := write_write m out first second (by omega)
      rw [hfl] at this
      rw [write_set _ ⟨out.region, out.off + a.size⟩ _ _ _ hone.2.2.2, Memory.set_same, Memory.set_set, this]
      rfl
    rw [show hmac a first (first ++ info.bytes m ++ [2]) = second from rfl, hm2, UInt64.sub_self] at s2
    obtain ⟨f, hf⟩ : ∃ f, (UInt64.ofNat (2 * a.size)).toNat + 1 = f + 3 := ⟨2 * a.size - 2, by rw [h2N]; omega⟩
    unfold hkdfExpandAt
    rw [if_neg h1, if_neg h2, if_neg h3, if_neg h4, hf, digestEnumToSize_algId]
    simp only [Memory.withLocal]
    have hloop : expandLoopAt (algId a) prk info (f + 3) ⟨UInt64.ofNat (2 * a.size), UInt64.ofNat a.size, m.set .counter [1], out, ⟨0, none⟩⟩ =
        .ok ⟨0, UInt64.ofNat a.size, (m.write out (first ++ second)).set .counter [3], ⟨out.region, out.off + a.size + a.size⟩,
          ⟨UInt64.ofNat a.size, some ⟨out.region, out.off + a.size⟩⟩⟩ := by
      rw [expandLoopAt, if_pos (UInt64.le_iff_toNat_le.2 (by simp only; omega)), s1]
      simp only [bind, Except.bind]
      rw [expandLoopAt, if_pos (UInt64.le_iff_toNat_le.2 (by simp only; omega))]
      rw [show (⟨UInt64.ofNat a.size, some out⟩ : MSlice) = prk from rfl, s2]
      simp only [bind, Except.bind]
      rw [expandLoopAt, if_neg]
      intro h
      have := UInt64.le_iff_toNat_le.1 h
      simp only [hszN, UInt64.toNat_zero] at this
      omega
    rw [hloop]
    simp only [bind, Except.bind, expandRestAt]
    rw [if_neg (by decide)]
    simp only [Memory.set_set]
    rw [← write_set _ _ _ _ _ hone.2.2.2, Memory.set_self]
  · have hN : (2 * a.size + a.size - 1) / a.size = 2 := by
      have e : 2 * a.size + a.size - 1 = a.size * 2 + (a.size - 1) := by omega
      rw [e, Nat.mul_add_div hsp, Nat.div_eq_of_lt (by omega)]
    have hb : hkdfBlocks a (prk.bytes m) (info.bytes m) 2 = first ++ hmac a (prk.bytes m) (first ++ info.bytes m ++ [2]) := by
      simp only [hkdfBlocks, List.range_succ, List.range_zero, List.nil_append, List.map_append, List.map_cons, List.map_nil, List.flatten_append, List.flatten_cons,
        List.flatten_nil, List.append_nil]
      rfl
    unfold hkdfExpand
    rw [if_pos (by omega), hN, hb, List.take_of_length_le (by rw [List.length_append, hfl, hmac_length]; omega)]
    simp only [Option.some.injEq, List.append_cancel_left_eq]
    exact eq_comm

/-! ## Examples -/

/-- 64 octets 0 .. 63 of the caller. -/
def sampleMemory : Memory := fun r => if r = .caller 0 then (List.range 64).map UInt8.ofNat else []

/-- The address of the octet `i`. -/
def sampleAt (i : Nat) : Addr := ⟨.caller 0, i⟩

instance (m : Memory) (s : MSlice) : Decidable (s.Readable m) := by unfold MSlice.Readable; split <;> exact inferInstance

theorem sample_ofCaller (n : UInt64) (i : Nat) : (⟨n, some (sampleAt i)⟩ : MSlice).OfCaller := by
  intro a ha
  simp only [Option.some.injEq] at ha
  subst ha
  exact ⟨0, rfl⟩

/-- A message of two overlapping slices is replaced by its digest, with an overlap on both sides. -/
example : ∃ x, x.length = 32 ∧ digestAt sampleMemory 1 (some [⟨2, some [⟨40, some (sampleAt 0)⟩, ⟨50, some (sampleAt 10)⟩]⟩]) 1 (some (sampleAt 20)) (some 32) =
    .ok ⟨.ok, sampleMemory.write (sampleAt 20) x, some 32⟩ :=
  ⟨_, sha2_length _ _, C70_digest .sha256 sampleMemory [⟨2, some [⟨40, some (sampleAt 0)⟩, ⟨50, some (sampleAt 10)⟩]⟩] 1 (by simp) (by decide)
    (fun g hg => by
      simp only [UInt64.toNat_one, List.take_succ_cons, List.take_zero, List.mem_singleton] at hg
      subst hg
      refine ⟨by decide, fun s hs => ?_⟩
      simp only [MList.slices, Option.getD_some, UInt64.reduceToNat, List.take_succ_cons, List.take_zero, List.mem_cons, List.not_mem_nil, or_false] at hs
      rcases hs with rfl | rfl <;> decide)
    (by simp) (by decide) (sampleAt 20) 32 (by decide) ⟨⟨0, rfl⟩, by decide⟩⟩

/-- A key is replaced by its HMAC over a message that includes the key. -/
example : ∃ x, x.length = 64 ∧ hmacAt sampleMemory 3 ⟨32, some (sampleAt 0)⟩ (some ⟨1, some [⟨64, some (sampleAt 0)⟩]⟩) (some (sampleAt 0)) (some 64) =
    .ok ⟨.ok, sampleMemory.write (sampleAt 0) x, some 64⟩ :=
  ⟨_, hmac_length _ _ _, C70_hmac .sha512 sampleMemory ⟨32, some (sampleAt 0)⟩ (sample_ofCaller _ _) (by decide) (by simp) (by decide)
    ⟨1, some [⟨64, some (sampleAt 0)⟩]⟩ (fun s hs => by simp only [Option.getD_some, List.mem_singleton] at hs; subst hs; exact sample_ofCaller _ _)
    ⟨by decide, fun s hs => by
      simp only [MList.slices, Option.getD_some, UInt64.reduceToNat, List.take_succ_cons, List.take_zero, List.mem_singleton] at hs
      subst hs
      decide⟩
    (by decide) (sampleAt 0) 64 (by decide) ⟨⟨0, rfl⟩, by decide⟩⟩

/-- 60 octets are derived from a pseudorandom key that overlaps with their last block only, and an info in the middle of that block. -/
example : ∃ okm, hkdfExpand .sha256 ((⟨32, some (sampleAt 32)⟩ : MSlice).bytes sampleMemory) ((⟨4, some (sampleAt 40)⟩ : MSlice).bytes sampleMemory) 60 = some okm ∧
    hkdfExpandAt sampleMemory 1 ⟨32, some (sampleAt 32)⟩ ⟨4, some (sampleAt 40)⟩ 60 (some (sampleAt 0)) = .ok ⟨.ok, sampleMemory.write (sampleAt 0) okm, none⟩ := by
  have av : ∀ (n : UInt64) (i : Nat), 32 ≤ i → (⟨n, some (sampleAt i)⟩ : MSlice).Avoids (sampleAt 0) ((((60 : UInt64).toNat + Alg.sha256.size - 1) / Alg.sha256.size - 1) * Alg.sha256.size) := by
    intro n i hi x hx _ p q _ hq
    simp only [Option.some.injEq] at hx
    subst hx
    have : (((60 : UInt64).toNat + Alg.sha256.size - 1) / Alg.sha256.size - 1) * Alg.sha256.size = 32 := by decide
    rw [this] at hq
    simp only [sampleAt]
    omega
  exact C70_expand_partial .sha256 sampleMemory ⟨32, some (sampleAt 32)⟩ ⟨4, some (sampleAt 40)⟩ (sample_ofCaller _ _) (by decide) (by simp) (by decide)
    (sample_ofCaller _ _) (by decide) (by decide) 60 (by decide) (sampleAt 0) ⟨⟨0, rfl⟩, by decide⟩ (av _ _ (by decide)) (av _ _ (by decide))

/-- The first block made from the octets 0 .. 31. -/
def sampleFirst : Bytes := [0x9b, 0x4c, 0x81, 0x20, 0xa4, 0x82, 0x3a, 0x95, 0xf4, 0x7c, 0xde, 0x17, 0xa2, 0x44, 0xf4, 0x50, 0x72, 0x44, 0xee, 0x6e, 0x39, 0x57, 0xd1, 0xfa, 0xb9, 0xfa, 0x29, 0xb4, 0x4d, 0x38, 0x29, 0xb7]

theorem sampleFirst_eq : hmac .sha256 ((⟨32, some (sampleAt 0)⟩ : MSlice).bytes sampleMemory) [1] = sampleFirst := by rw [hmac_eval]; decide +kernel

/-- **C70** (violated by expand).  Deriving 64 octets in place of the octets 0 .. 31 reports success and does not give the result of RFC 5869. -/
theorem C70_expand_in_place_wrong : ∃ mem, hkdfExpandAt sampleMemory 1 ⟨32, some (sampleAt 0)⟩ ⟨0, none⟩ 64 (some (sampleAt 0)) = .ok ⟨.ok, mem, none⟩ ∧
    hkdfExpand .sha256 ((List.range 32).map UInt8.ofNat) [] 64 ≠ some (mem (.caller 0)) := by
  obtain ⟨h1, h2⟩ := C70_expand_in_place .sha256 sampleMemory (sampleAt 0) ⟨0, none⟩ (fun a ha => by simp at ha) (by decide) (by decide)
    ⟨⟨0, rfl⟩, by decide⟩ (fun x hx => by simp at hx)
  refine ⟨_, h1, fun h => ?_⟩
  have hl : ∀ x y : Bytes, x.length = 32 → y.length = 32 → sampleMemory.write (sampleAt 0) (x ++ y) (.caller 0) = x ++ y := by
    intro x y hx hy
    have hm : (sampleMemory (.caller 0)).length = 64 := by decide
    simp only [Memory.write, sampleAt, if_true, List.take_zero, List.nil_append, Nat.zero_add]
    rw [List.drop_of_length_le (by rw [List.length_append]; omega), List.append_nil]
  rw [hl _ _ (hmac_length _ _ _) (hmac_length _ _ _)] at h
  have hb : (⟨UInt64.ofNat (Alg.size .sha256), some (sampleAt 0)⟩ : MSlice).bytes sampleMemory = (List.range 32).map UInt8.ofNat := by decide
  have h3 := h2.1 (by rw [hb]; exact h)
  have hn : (⟨0, none⟩ : MSlice).bytes sampleMemory = [] := rfl
  have hp : (⟨UInt64.ofNat (Alg.size .sha256), some (sampleAt 0)⟩ : MSlice) = ⟨32, some (sampleAt 0)⟩ := rfl
  rw [hn, hp, List.nil_append, sampleFirst_eq] at h3
  have : hmac .sha256 sampleFirst (sampleFirst ++ [] ++ [2]) ≠ hmac .sha256 ((⟨32, some (sampleAt 0)⟩ : MSlice).bytes sampleMemory) (sampleFirst ++ [] ++ [2]) := by
    rw [hmac_eval, hmac_eval]
    decide +kernel
  exact this h3

end Nat20

import Verif.Lemmas.Overlap
import Verif.Props.Arena
/-!
# C70: key expansion with any overlap
-/

namespace Nat20

open Fips

/-- **C70** (expand, exactly). Whatever overlaps with whatever, and for every length (also beyond the 255 blocks of RFC 5869), expand reports success, changes nothing but the output, and the output is
that of RFC 5869 in which pseudorandom key and info of each block are what is in their place after the blocks before have been written. -/
theorem C70_expand_exact (a : Alg) (m : Memory) (prk info : MSlice) (hp : prk.OfCaller) (hpr : prk.Readable m) (hpb : prk.addr ≠ none) (hpl : (prk.bytes m).length < 2 ^ 61)
    (hi : info.OfCaller) (hir : info.Readable m) (hil : 256 + (info.bytes m).length < 2 ^ 61) (L : UInt64) (out : Addr) (ho : out.Room m L.toNat) :
    hkdfExpandAt m (algId a) prk info L (some out) = .ok ⟨.ok, m.write out (overlapExpand a m (fun now => prk.bytes now) info out L.toNat), none⟩ :=
  ovExpandAt_ok ⟨ofCaller_notExpand prk hp, hpr, hpb, hpl, ofCaller_notExpand info hi, hir, hil, room_notExpand m out _ ho, ho.2⟩

theorem overlapBlocks_set (a : Alg) (m : Memory) (P : Bytes) (b : Bytes) (hb : (⟨UInt64.ofNat a.size, some prkAddr⟩ : MSlice).bytes (m.set .prk b) = P) (info : MSlice) (hi : info.OfCaller)
    (out : Addr) (hon : out.region ≠ .prk) (k : Nat) :
    overlapBlocks a (m.set .prk b) (fun now => (⟨UInt64.ofNat a.size, some prkAddr⟩ : MSlice).bytes now) info out k = overlapBlocks a m (fun _ => P) info out k := by
  induction k with
  | zero => rfl
  | succ k ih =>
    have e : ∀ x, (m.set .prk b).write out x = (m.write out x).set .prk b := fun x => write_set _ _ _ _ _ hon
    have h1 : ∀ x, (⟨UInt64.ofNat a.size, some prkAddr⟩ : MSlice).bytes ((m.set .prk b).write out x) = P := fun x => by
      rw [← hb]
      simp only [MSlice.bytes, prkAddr]
      rw [write_other _ _ _ _ (Ne.symm hon)]
    have h2 : ∀ x, info.bytes ((m.set .prk b).write out x) = info.bytes (m.write out x) := fun x => by
      rw [e, ← fetch_bytes, ← fetch_bytes, fetch_congr (m.write out x) _ info]
      intro y hy
      obtain ⟨n, hn⟩ := hi y hy
      exact Memory.set_other _ _ _ _ (by rw [hn]; simp)
    simp only [overlapBlocks, ih, h1, h2]

/-- **C70** (hkdf, exactly). The input key material and the salt may overlap with the output; if the info does, each block has the info as it is after the blocks before. -/
theorem C70_hkdf_exact (a : Alg) (m : Memory) (ikm salt info : MSlice) (hi : ikm.OfCaller) (hir : ikm.Readable m) (hil : 128 + (ikm.bytes m).length < 2 ^ 61)
    (hs : salt.OfCaller) (hsr : salt.Readable m) (hsb : salt.addr ≠ none) (hsl : (salt.bytes m).length < 2 ^ 61)
    (hf : info.OfCaller) (hfr : info.Readable m) (hfl : 256 + (info.bytes m).length < 2 ^ 61) (L : UInt64) (out : Addr)
    (ho : out.Room m L.toNat) :
    hkdfAt m (algId a) ikm salt info L (some out) =
      .ok ⟨.ok, m.write out (overlapExpand a m (fun _ => hkdfExtract a (salt.bytes m) (ikm.bytes m)) info out L.toNat), none⟩ := by
  have hsz := size_lt a
  have h64 := size_le_64 a
  have hroom := ho.2
  have hszN : (UInt64.ofNat a.size).toNat = a.size := by rw [UInt64.toNat_ofNat']; exact Nat.mod_eq_of_lt hsz
  have hne : ∀ s : MSlice, s.OfCaller → ∀ x, s.addr = some x → x.region ≠ .prk := by
    intro s hs x hx
    obtain ⟨n, hn⟩ := hs x hx
    rw [hn]
    simp
  have hon : out.region ≠ .prk := by
    obtain ⟨⟨n, hn⟩, -⟩ := ho
    rw [hn]
    simp
  -- the memory during the call
  have hbytes : ∀ s : MSlice, s.OfCaller → ∀ b, s.bytes (m.set .prk b) = s.bytes m := by
    intro s hs b
    rw [← fetch_bytes, ← fetch_bytes, fetch_congr m (m.set .prk b) s fun x hx => Memory.set_other _ _ _ _ (hne s hs x hx)]
  have hread : ∀ s : MSlice, s.OfCaller → s.Readable m → ∀ b, s.Readable (m.set .prk b) := by
    intro s hs hr b
    exact readable_length m _ s hr fun x hx => by rw [Memory.set_other _ _ _ _ (hne s hs x hx)]
  obtain ⟨v1, v2⟩ := fetch_valid _ ikm (hread ikm hi hir (List.replicate 64 0))
  obtain ⟨w1, w2⟩ := fetch_valid _ salt (hread salt hs hsr (List.replicate 64 0))
  have hex : extractAt (m.set .prk (List.replicate 64 0)) (algId a) ikm salt (some prkAddr) (some (digestEnumToSize (algId a))) =
      .ok ⟨.ok, m.set .prk (hkdfExtract a (salt.bytes m) (ikm.bytes m) ++ List.replicate (64 - a.size) 0), some (UInt64.ofNat a.size)⟩ := by
    rw [extractAt_eq _ _ ikm salt (ofCaller_notHmac ikm hi) (ofCaller_notHmac salt hs) _
      (fun x hx => by simp only [Option.some.injEq] at hx; subst hx; exact ⟨by decide, by decide⟩)]
    have ht : (m.set .prk (List.replicate 64 0)).tail prkAddr = List.replicate 64 0 := (Memory.tail_zero _ _).trans (Memory.set_same _ _ _)
    simp only [Option.map_some, ht]
    rw [C44_extract_partial a _ _ v1 v2 w1 (fetch_buffer _ salt hsb) (by rw [fetch_bytes, hbytes salt hs]; exact hsl)
      (by rw [fetch_bytes, hbytes ikm hi]; exact hil) (List.replicate 64 0) (digestEnumToSize (algId a)) (by rw [digestEnumToSize_toNat]; exact Nat.le_refl _)
      (by rw [digestEnumToSize_toNat]; simpa using h64)]
    simp only [Except.map, Reply.at, fetch_bytes, hbytes ikm hi, hbytes salt hs, Memory.put, List.drop_replicate]
    rw [show prkAddr = ⟨.prk, 0⟩ from rfl, Memory.store_zero, Memory.set_set]
  have hPl : (hkdfExtract a (salt.bytes m) (ikm.bytes m)).length = a.size := by rw [hkdfExtract_eq, hmac_length]
  have hprk : (⟨UInt64.ofNat a.size, some prkAddr⟩ : MSlice).bytes (m.set .prk (hkdfExtract a (salt.bytes m) (ikm.bytes m) ++ List.replicate (64 - a.size) 0)) =
      hkdfExtract a (salt.bytes m) (ikm.bytes m) := by
    generalize hkdfExtract a (salt.bytes m) (ikm.bytes m) = P at hPl
    simp only [MSlice.bytes, prkAddr, Memory.set_same, List.drop_zero, hszN]
    rw [List.take_append_of_le_length (by omega), List.take_of_length_le (by omega)]
  have hexp := ovExpandAt_ok (a := a) (m := m.set .prk (hkdfExtract a (salt.bytes m) (ikm.bytes m) ++ List.replicate (64 - a.size) 0))
    (prk := ⟨UInt64.ofNat a.size, some prkAddr⟩) (info := info) (L := L) (out := out)
    ⟨fun x hx => by simp only [Option.some.injEq] at hx; subst hx; exact ⟨by decide, by decide, by decide, by decide⟩,
      by simp only [MSlice.Readable, prkAddr, Memory.set_same, List.drop_zero, hszN, List.length_append, hPl]; omega,
      by simp, by rw [hprk, hPl]; omega, ofCaller_notExpand info hf, hread info hf hfr _, by rw [hbytes info hf]; exact hfl, room_notExpand m out _ ho,
      by rw [Memory.set_other _ _ _ _ hon]; exact hroom⟩
  simp only [ovB, overlapBlocks_set a m _ _ hprk info hf out hon] at hexp
  have h1 : digestEnumToSize (algId a) ≠ 0 := by cases a <;> decide
  have hnn : ∀ s : MSlice, s.Readable m → ¬ (s.addr = none ∧ s.size ≠ 0) := by
    rintro s hr ⟨x, y⟩
    unfold MSlice.Readable at hr
    rw [x] at hr
    exact y hr
  unfold hkdfAt
  rw [if_neg h1, if_neg (hnn ikm hir), if_neg (hnn salt hsr), if_neg (hnn info hfr)]
  simp only [Memory.withSecret, bury_wiped, wipe_set, hkdfStepsAt, hex, bind, Except.bind, if_true, Option.getD_some, hexp]
  rw [write_set _ _ _ _ _ hon, Memory.set_set, ← write_set _ _ _ _ _ hon, Memory.set_self]
  rfl

/-- Where there is no overlap with any but the last block this is RFC 5869. -/
theorem C70_exact_right (a : Alg) (m : Memory) (prk info : MSlice) (out : Addr) (L : Nat) (hroom : out.off + L ≤ (m out.region).length)
    (hpa : prk.Avoids out (((L + a.size - 1) / a.size - 1) * a.size)) (hia : info.Avoids out (((L + a.size - 1) / a.size - 1) * a.size)) (hL : L ≤ 255 * a.size) :
    hkdfExpand a (prk.bytes m) (info.bytes m) L = some (overlapExpand a m (fun now => prk.bytes now) info out L) := by
  have hsp := size_pos a
  have key : ∀ k, k ≤ (L + a.size - 1) / a.size → overlapBlocks a m (fun now => prk.bytes now) info out k =
      (hkdfT a (prk.bytes m) (info.bytes m) k, hkdfBlocks a (prk.bytes m) (info.bytes m) k) := by
    intro k
    induction k with
    | zero => intro _; rfl
    | succ k ih =>
      intro hk
      have hlen := hkdfBlocks_length a (prk.bytes m) (info.bytes m) k
      have hle : k * a.size ≤ ((L + a.size - 1) / a.size - 1) * a.size := Nat.mul_le_mul_right _ (by omega)
      have hlt : ((L + a.size - 1) / a.size - 1) * a.size ≤ L := by
        have := Nat.div_mul_le_self (L + a.size - 1) a.size
        rw [Nat.sub_mul, Nat.one_mul]
        omega
      have hw : ∀ s : MSlice, s.Avoids out (((L + a.size - 1) / a.size - 1) * a.size) → s.bytes (m.write out (hkdfBlocks a (prk.bytes m) (info.bytes m) k)) = s.bytes m := fun s hs =>
        bytes_write m out _ s (avoids_mono s out _ _ hs (by omega)) (by omega)
      simp only [overlapBlocks, ih (by omega), hw prk hpa, hw info hia, hkdfBlocks_succ]
      rfl
  unfold hkdfExpand overlapExpand
  rw [if_pos hL, key _ (Nat.le_refl _)]

/-- Non-vacuity: 60 octets at 0 from a pseudorandom key at 0 and an info at 20, both of which the first block replaces. -/
example : hkdfExpandAt sampleMemory 1 ⟨32, some (sampleAt 0)⟩ ⟨30, some (sampleAt 20)⟩ 60 (some (sampleAt 0)) =
    .ok ⟨.ok, sampleMemory.write (sampleAt 0) (overlapExpand .sha256 sampleMemory (fun now => (⟨32, some (sampleAt 0)⟩ : MSlice).bytes now) ⟨30, some (sampleAt 20)⟩ (sampleAt 0) 60), none⟩ :=
  C70_expand_exact .sha256 sampleMemory ⟨32, some (sampleAt 0)⟩ ⟨30, some (sampleAt 20)⟩ (sample_ofCaller _ _) (by decide) (by simp) (by decide)
    (sample_ofCaller _ _) (by decide) (by decide) 60 (sampleAt 0) ⟨⟨0, rfl⟩, by decide⟩

/-- The same with input key material at 0, a salt at 10 and an info at 20. -/
example : hkdfAt sampleMemory 1 ⟨32, some (sampleAt 0)⟩ ⟨5, some (sampleAt 10)⟩ ⟨30, some (sampleAt 20)⟩ 60 (some (sampleAt 0)) =
    .ok ⟨.ok, sampleMemory.write (sampleAt 0) (overlapExpand .sha256 sampleMemory (fun _ => hkdfExtract .sha256 ((⟨5, some (sampleAt 10)⟩ : MSlice).bytes sampleMemory)
      ((⟨32, some (sampleAt 0)⟩ : MSlice).bytes sampleMemory)) ⟨30, some (sampleAt 20)⟩ (sampleAt 0) 60), none⟩ :=
  C70_hkdf_exact .sha256 sampleMemory ⟨32, some (sampleAt 0)⟩ ⟨5, some (sampleAt 10)⟩ ⟨30, some (sampleAt 20)⟩ (sample_ofCaller _ _) (by decide) (by decide)
    (sample_ofCaller _ _) (by decide) (by simp) (by decide) (sample_ofCaller _ _) (by decide) (by decide) 60 (sampleAt 0) ⟨⟨0, rfl⟩, by decide⟩

end Nat20

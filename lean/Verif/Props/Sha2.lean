import Verif.Lemmas.Sha2Const
/-!
# C37, C38, C39: the SHA-2 implementation computes FIPS 180-4
-/

namespace Nat20

open Fips

/-- One of the four hash functions: a state, an update for each chunk, the final digest written to memory `d`. -/
def shaRun {w : Nat} (init : ShaState w) (update : Option (ShaState w) → Slice → Except UB (Option (ShaState w)))
    (finalize : Option (ShaState w) → Option Bytes → Except UB (Option (ShaState w) × Option Bytes))
    (chunks : List Slice) (d : Bytes) : Except UB (Option Bytes) := do
  let s ← chunks.foldlM update (some init)
  let r ← finalize s (some d)
  .ok r.2

section
variable {F : Family} {P : ShaCode F.w} (hP : ShaCode.Refines F P)

include hP in
theorem updates_ok (h8 : F.rounds % 8 = 0) (H0 : F.Hash) (chunks : List Slice) : ∀ (s : ShaState F.w) (msg : Bytes), Rep F H0 s msg →
    (∀ c ∈ chunks, c.Valid) →
    ∃ s', chunks.foldlM (shaUpdate P) (some s) = .ok (some s') ∧ Rep F H0 s' (msg ++ (chunks.map Slice.bytes).flatten) := by
  induction chunks with
  | nil => intro s msg h _; exact ⟨s, rfl, by simpa using h⟩
  | cons c cs ih =>
    intro s msg h hv
    obtain ⟨s1, e1, h1⟩ := update_ok hP h8 H0 s msg h c (hv c (by simp))
    obtain ⟨s2, e2, h2⟩ := ih s1 _ h1 (fun c hc => hv c (by simp [hc]))
    refine ⟨s2, ?_, by simpa using h2⟩
    rw [List.foldlM_cons, e1]
    exact e2

include hP in
theorem run_ok (h8 : F.rounds % 8 = 0) (H0 : F.Hash) (size : Nat) (hs : size ≤ 8 * F.wordBytes) (hne : F.blockBytes ≠ 0) (chunks : List Slice)
    (hv : ∀ c ∈ chunks, c.Valid) (hm : (chunks.map Slice.bytes).flatten.length < 2 ^ 61) (d : Bytes) (hd : size ≤ d.length) :
    shaRun (shaInit H0) (shaUpdate P) (fun s d => shaFinalize P s d size) chunks d =
      .ok (some ((F.output (F.absorb H0 (F.pad (chunks.map Slice.bytes).flatten))).take size ++ d.drop size)) := by
  obtain ⟨s, e, h⟩ := updates_ok hP h8 H0 chunks _ _ (init_rep H0 hne) hv
  obtain ⟨s', e'⟩ := finalize_ok hP h8 H0 s _ h (by simpa using hm) d size hs hd
  unfold shaRun
  rw [e]
  show (do let r ← shaFinalize P (some s) (some d) size; .ok r.2) = _
  rw [e']
  rfl

end

theorem output_length (F : Family) (H : F.Hash) : (F.output H).length = 8 * F.wordBytes := by
  unfold Family.output
  rw [List.length_flatten, List.map_map]
  have : (List.length ∘ fun x : F.Word => toBE F.wordBytes x.toNat) = fun _ => F.wordBytes := by
    funext x; simp [toBE]
  rw [this, List.map_const', List.sum_replicate_nat, Vector.length_toList]

/-- A digest has the length its name promises. -/
theorem sha2_length (a : Alg) (m : Bytes) : (sha2 a m).length = a.size := by
  cases a <;> simp [sha2, output_length, Alg.size, family256, family512]

/-- **C37** (SHA-256).  For every chunking of every message of fewer than 2^61 octets and every output memory of at least 32
octets, init, one update per chunk and finalize write exactly the FIPS 180-4 digest of the message, and nothing else. -/
theorem C37_sha256 (chunks : List Slice) (hv : ∀ c ∈ chunks, c.Valid) (hm : (chunks.map Slice.bytes).flatten.length < 2 ^ 61)
    (d : Bytes) (hd : 32 ≤ d.length) :
    shaRun sha256Init sha256Update sha256Finalize chunks d =
      .ok (some (sha2 .sha256 (chunks.map Slice.bytes).flatten ++ d.drop 32)) := by
  rw [sha256Init_eq]
  have := run_ok sha256_refines (by decide) (hashOf (initialFirst 32)) 32 (by decide) (by decide) chunks hv hm d hd
  rw [List.take_of_length_le (by rw [output_length]; decide)] at this
  exact this

/-- **C37** (SHA-224). -/
theorem C37_sha224 (chunks : List Slice) (hv : ∀ c ∈ chunks, c.Valid) (hm : (chunks.map Slice.bytes).flatten.length < 2 ^ 61)
    (d : Bytes) (hd : 28 ≤ d.length) :
    shaRun sha224Init sha256Update sha224Finalize chunks d =
      .ok (some (sha2 .sha224 (chunks.map Slice.bytes).flatten ++ d.drop 28)) := by
  rw [sha224Init_eq]
  exact run_ok sha256_refines (by decide) (hashOf initialSha224) 28 (by decide) (by decide) chunks hv hm d hd

/-- **C38** (SHA-512). -/
theorem C38_sha512 (chunks : List Slice) (hv : ∀ c ∈ chunks, c.Valid) (hm : (chunks.map Slice.bytes).flatten.length < 2 ^ 61)
    (d : Bytes) (hd : 64 ≤ d.length) :
    shaRun sha512Init sha512Update sha512Finalize chunks d =
      .ok (some (sha2 .sha512 (chunks.map Slice.bytes).flatten ++ d.drop 64)) := by
  rw [sha512Init_eq]
  have := run_ok sha512_refines (by decide) (hashOf (initialFirst 64)) 64 (by decide) (by decide) chunks hv hm d hd
  rw [List.take_of_length_le (by rw [output_length]; decide)] at this
  exact this

/-- **C38** (SHA-384). -/
theorem C38_sha384 (chunks : List Slice) (hv : ∀ c ∈ chunks, c.Valid) (hm : (chunks.map Slice.bytes).flatten.length < 2 ^ 61)
    (d : Bytes) (hd : 48 ≤ d.length) :
    shaRun sha384Init sha512Update sha384Finalize chunks d =
      .ok (some (sha2 .sha384 (chunks.map Slice.bytes).flatten ++ d.drop 48)) := by
  rw [sha384Init_eq]
  exact run_ok sha512_refines (by decide) (hashOf initialSha384) 48 (by decide) (by decide) chunks hv hm d hd

/-- **C37** (chunking).  Two chunkings of the same message give the same digest. -/
theorem C37_chunking (c c' : List Slice) (hv : ∀ x ∈ c, x.Valid) (hv' : ∀ x ∈ c', x.Valid)
    (he : (c.map Slice.bytes).flatten = (c'.map Slice.bytes).flatten) (hm : (c.map Slice.bytes).flatten.length < 2 ^ 61)
    (d : Bytes) (hd : 32 ≤ d.length) :
    shaRun sha256Init sha256Update sha256Finalize c d = shaRun sha256Init sha256Update sha256Finalize c' d ∧
    shaRun sha224Init sha256Update sha224Finalize c d = shaRun sha224Init sha256Update sha224Finalize c' d := by
  rw [C37_sha256 c hv hm d hd, C37_sha256 c' hv' (he ▸ hm) d hd, C37_sha224 c hv hm d (by omega),
    C37_sha224 c' hv' (he ▸ hm) d (by omega), he]
  exact ⟨rfl, rfl⟩

/-- **C38** (chunking). -/
theorem C38_chunking (c c' : List Slice) (hv : ∀ x ∈ c, x.Valid) (hv' : ∀ x ∈ c', x.Valid)
    (he : (c.map Slice.bytes).flatten = (c'.map Slice.bytes).flatten) (hm : (c.map Slice.bytes).flatten.length < 2 ^ 61)
    (d : Bytes) (hd : 64 ≤ d.length) :
    shaRun sha512Init sha512Update sha512Finalize c d = shaRun sha512Init sha512Update sha512Finalize c' d ∧
    shaRun sha384Init sha512Update sha384Finalize c d = shaRun sha384Init sha512Update sha384Finalize c' d := by
  rw [C38_sha512 c hv hm d hd, C38_sha512 c' hv' (he ▸ hm) d hd, C38_sha384 c hv hm d (by omega),
    C38_sha384 c' hv' (he ▸ hm) d (by omega), he]
  exact ⟨rfl, rfl⟩

/-- **C37**, **C38** (NULL state).  With a NULL state, update and finalize read and write nothing, whatever the other arguments. -/
theorem C37_null (c : Slice) (d : Option Bytes) :
    sha256Update none c = .ok none ∧ sha256Finalize none d = .ok (none, d) ∧ sha224Finalize none d = .ok (none, d) ∧
    sha512Update none c = .ok none ∧ sha512Finalize none d = .ok (none, d) ∧ sha384Finalize none d = .ok (none, d) :=
  ⟨rfl, rfl, rfl, rfl, rfl, rfl⟩

/-- "abc" in two chunks, one of them followed by memory that is not part of it, and an empty one. -/
def abcChunks : List Slice := [⟨1, some ⟨[], [0x61, 0xff]⟩⟩, ⟨0, none⟩, ⟨2, some ⟨[], [0x62, 0x63]⟩⟩]

example : (∀ c ∈ abcChunks, c.Valid) ∧ (abcChunks.map Slice.bytes).flatten = [0x61, 0x62, 0x63] := by
  refine ⟨?_, by decide⟩
  intro c hc
  simp only [abcChunks, List.mem_cons, List.not_mem_nil, or_false] at hc
  rcases hc with rfl | rfl | rfl <;> intro p hp <;> simp at hp <;> subst hp <;> decide

/-- FIPS 180-4 example value: SHA-256("abc"), through the model. -/
example : shaRun sha256Init sha256Update sha256Finalize abcChunks (List.replicate 33 0x11) = .ok (some [
    0xba, 0x78, 0x16, 0xbf, 0x8f, 0x01, 0xcf, 0xea, 0x41, 0x41, 0x40, 0xde, 0x5d, 0xae, 0x22, 0x23,
    0xb0, 0x03, 0x61, 0xa3, 0x96, 0x17, 0x7a, 0x9c, 0xb4, 0x10, 0xff, 0x61, 0xf2, 0x00, 0x15, 0xad, 0x11]) := by decide +kernel

/-! ## C39 -/

/-- `l` are the first `l.length` primes from the prime number `first` on: increasing, and exactly the primes of the range. -/
def ConsecutivePrimes (first : Nat) (l : List Nat) : Prop :=
  l.head? = some first ∧ l.Pairwise (· < ·) ∧
  ∀ n, n ∈ l ↔ first ≤ n ∧ n ≤ l.getLastD 0 ∧ 2 ≤ n ∧ ∀ d, d ∣ n → d = 1 ∨ d = n

/-- `x` is the number made of the `k` bits that follow the first `skip` bits after the point of the `e`-th root of `p`:
`r = ⌊2 ^ (skip + k) · p ^ (1 / e)⌋`, of which `x` are the last `k` bits. -/
def IsRootBits (e skip k p x : Nat) : Prop := ∃ r, r ^ e ≤ p * 2 ^ (e * (skip + k)) ∧ p * 2 ^ (e * (skip + k)) < (r + 1) ^ e ∧ x = r % 2 ^ k

theorem rootBits_is (e w p : Nat) (he : 0 < e) (hp : p < 2 ^ (e * 16)) (skip k : Nat) (h : skip + k = w) :
    IsRootBits e skip k p (rootBits e w p % 2 ^ k) := by
  subst h
  have := iroot_spec e he (16 + (skip + k)) (p * 2 ^ (e * (skip + k))) (by
    rw [Nat.mul_add e 16, Nat.pow_add 2 (e * 16)]
    exact Nat.mul_lt_mul_of_pos_right hp (Nat.two_pow_pos _))
  refine ⟨_, this.1, this.2, ?_⟩
  unfold rootBits
  rw [Nat.mod_mod_of_dvd]
  exact Nat.pow_dvd_pow 2 (by omega)

theorem primes_lt (p : Nat) (h : p ∈ primes) : p < 410 := by
  unfold primes at h
  rw [List.mem_filter, List.mem_range] at h
  exact h.1

theorem primes_get_lt (i : Nat) : primes.getD i 0 < 410 := by
  rw [List.getD_eq_getElem?_getD]
  cases h : primes[i]? with
  | none => simp
  | some x => exact primes_lt x (List.mem_of_getElem? h)

theorem primes_consecutive : ConsecutivePrimes 2 primes := by
  refine ⟨by decide +kernel, ?_, fun n => ?_⟩
  · unfold primes; exact List.Pairwise.filter _ List.pairwise_lt_range
  · have hl : primes.getLastD 0 = 409 := by decide +kernel
    rw [hl]
    unfold primes
    rw [List.mem_filter, List.mem_range, isPrime_iff]
    constructor
    · rintro ⟨h1, h2, h3⟩; exact ⟨h2, by omega, h2, h3⟩
    · rintro ⟨h1, h2, h3, h4⟩; exact ⟨by omega, h3, h4⟩

theorem const_root {w : Nat} (l : List (BitVec w)) (e n : Nat) (he : 0 < e) (hn : n ≤ 80) (off : Nat)
    (wide : Nat) (hw : w ≤ wide)
    (h : l = ((primes.drop off).take n).map fun p => BitVec.ofNat w (rootBits e wide p)) (hl : l.length = n) (i : Nat) (hi : i < n) :
    IsRootBits e (wide - w) w (primes.getD (off + i) 0) ((l.getD i 0).toNat) := by
  have hb : i < (primes.drop off).length := by
    have := congrArg List.length h
    rw [List.length_map, List.length_take] at this
    omega
  have hg : l.getD i 0 = BitVec.ofNat w (rootBits e wide (primes.getD (off + i) 0)) := by
    rw [h, List.getD_eq_getElem?_getD, List.getElem?_map, List.getElem?_take_of_lt hi, List.getElem?_drop, List.getD_eq_getElem?_getD]
    rw [List.length_drop] at hb
    rw [List.getElem?_eq_getElem (by omega)]
    rfl
  rw [hg, BitVec.toNat_ofNat]
  have h410 := primes_get_lt (off + i)
  refine rootBits_is e wide _ he ?_ _ _ (by omega)
  exact Nat.lt_of_lt_of_le (Nat.lt_trans h410 (by decide : 410 < 2 ^ (1 * 16))) (Nat.pow_le_pow_right (by decide) (Nat.mul_le_mul_right 16 he))

/-- **C39**.  There is a list of the first 80 primes such that the round constants are the first 32 (64) bits of the
fractional parts of the cube roots of its first 64 (80) elements, the initial values of SHA-256 and SHA-512 the first 32 (64)
bits of the fractional parts of the square roots of the first eight, and those of SHA-384 (SHA-224) the first (second) 64 (32)
bits of the fractional parts of the square roots of the next eight. -/
theorem C39_constants : ∃ ps : List Nat, ps.length = 80 ∧ ConsecutivePrimes 2 ps ∧
    K_256.length = 64 ∧ (∀ i, i < 64 → IsRootBits 3 0 32 (ps.getD i 0) (K_256.getD i 0).toNat) ∧
    K_512.length = 80 ∧ (∀ i, i < 80 → IsRootBits 3 0 64 (ps.getD i 0) (K_512.getD i 0).toNat) ∧
    (∀ i, i < 8 → IsRootBits 2 0 32 (ps.getD i 0) (sha256Init.H.toList.getD i 0).toNat) ∧
    (∀ i, i < 8 → IsRootBits 2 0 64 (ps.getD i 0) (sha512Init.H.toList.getD i 0).toNat) ∧
    (∀ i, i < 8 → IsRootBits 2 32 32 (ps.getD (8 + i) 0) (sha224Init.H.toList.getD i 0).toNat) ∧
    (∀ i, i < 8 → IsRootBits 2 0 64 (ps.getD (8 + i) 0) (sha384Init.H.toList.getD i 0).toNat) := by
  refine ⟨primes, by decide +kernel, primes_consecutive, by decide, fun i hi => ?_, by decide, fun i hi => ?_, fun i hi => ?_, fun i hi => ?_,
    fun i hi => ?_, fun i hi => ?_⟩
  · simpa using const_root K_256 3 64 (by decide) (by decide) 0 32 (by decide) K_256_eq (by decide) i hi
  · simpa using const_root K_512 3 80 (by decide) (by decide) 0 64 (by decide) K_512_eq (by decide) i hi
  · simpa using const_root sha256Init.H.toList 2 8 (by decide) (by decide) 0 32 (by decide) (by decide +kernel) (by decide) i hi
  · simpa using const_root sha512Init.H.toList 2 8 (by decide) (by decide) 0 64 (by decide) (by decide +kernel) (by decide) i hi
  · simpa using const_root sha224Init.H.toList 2 8 (by decide) (by decide) 8 64 (by decide) (by decide +kernel) (by decide) i hi
  · simpa using const_root sha384Init.H.toList 2 8 (by decide) (by decide) 8 64 (by decide) (by decide +kernel) (by decide) i hi

/-- 2 is the first prime and ⌊2 ^ 32 · √2⌋ = 0x16a09e667. -/
example : IsRootBits 2 0 32 2 0x6a09e667 := ⟨0x16a09e667, by decide +kernel, by decide +kernel, by decide⟩

end Nat20

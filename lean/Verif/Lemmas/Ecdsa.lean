import Verif.Model.Boringssl
import Verif.Lemmas.Asn1Integer
import Verif.Lemmas.Sha2Stream
/-!
# Lemmas about ECDSA signatures: from DER to fixed size
-/

namespace Nat20

open Fips Der

theorem toBE_succ (n r : Nat) : toBE (n + 1) r = toBE n (r / 256) ++ [UInt8.ofNat r] := by
  unfold toBE
  rw [List.range_succ, List.map_append]
  congr 1
  · apply List.map_congr_left
    intro i hi
    rw [List.mem_range] at hi
    rw [Nat.div_div_eq_div_mul, ← Nat.pow_succ', show n + 1 - 1 - i = n - 1 - i + 1 by omega]
  · simp

theorem toBE_zero_eq (n : Nat) : toBE n 0 = List.replicate n 0 := by
  induction n with
  | zero => rfl
  | succ n ih => rw [toBE_succ, Nat.zero_div, ih, List.replicate_succ']; rfl

/-- Fixed size is minimal size after zeros. -/
theorem toBE_eq (n : Nat) : ∀ r, r < 256 ^ n → toBE n r = List.replicate (n - (beBytes r).length) 0 ++ beBytes r := by
  induction n with
  | zero =>
    intro r h
    have : r = 0 := by simpa using h
    subst this
    rw [beBytes_zero]
    rfl
  | succ n ih =>
    intro r h
    by_cases h0 : r = 0
    · subst h0
      rw [toBE_zero_eq, beBytes_zero]
      simp
    · have hd : r / 256 < 256 ^ n := by
        apply Nat.div_lt_of_lt_mul
        rwa [← Nat.pow_succ']
      have he : UInt8.ofNat (r % 256) = UInt8.ofNat r := by
        apply UInt8.toNat_inj.mp
        simp
      rw [toBE_succ, ih _ hd, beBytes_pos h0, List.length_append, List.append_assoc, he]
      congr 2
      simp

/-- The contents octets of a number, without the octet that is one too many. -/
def sigContent (n : Nat) (c : Bytes) : Bytes := if c.length = n + 1 then c.drop 1 else c

theorem sigContent_ok (n r : Nat) (hr : r < 256 ^ n) (hn : 0 < n) :
    (natContent r).length ≤ n + 1 ∧ (sigContent n (natContent r)).length ≤ n ∧
    List.replicate (n - (sigContent n (natContent r)).length) 0 ++ sigContent n (natContent r) = toBE n r := by
  have hl := beBytes_length_le r n hr
  rw [toBE_eq n r hr]
  unfold sigContent natContent
  cases h : beBytes r with
  | nil =>
    rw [h] at hl
    simp only [List.length_singleton]
    rw [if_neg (by omega)]
    refine ⟨by omega, hn, ?_⟩
    obtain ⟨m, rfl⟩ : ∃ m, n = m + 1 := ⟨n - 1, by omega⟩
    simp [List.replicate_succ']
  | cons b t =>
    rw [h, List.length_cons] at hl
    simp only
    by_cases hb : b.toNat < 128
    · simp only [if_pos hb, List.length_cons]
      rw [if_neg (by omega)]
      exact ⟨by omega, by simpa using hl, by simp⟩
    · simp only [if_neg hb, List.length_cons]
      by_cases hx : t.length + 1 + 1 = n + 1
      · rw [if_pos hx]
        exact ⟨by omega, by simpa using hl, by simp⟩
      · rw [if_neg hx]
        refine ⟨by omega, by simp; omega, ?_⟩
        simp only [List.length_cons]
        obtain ⟨m, hm⟩ : ∃ m, n - (t.length + 1) = m + 1 := ⟨n - (t.length + 1) - 1, by omega⟩
        rw [hm, show n - (t.length + 1 + 1) = m by omega, List.replicate_succ', List.append_assoc]
        rfl

/-- The DER form of a signature whose integers are short enough for short lengths. -/
theorem ecdsaDer_eq (r s : Nat) (hr : (natContent r).length ≤ 49) (hs : (natContent s).length ≤ 49) : ecdsaDer r s =
    [0x30, UInt8.ofNat ((natContent r).length + (natContent s).length + 4), 0x02, UInt8.ofNat (natContent r).length] ++ natContent r ++
      ([0x02, UInt8.ofNat (natContent s).length] ++ natContent s) := by
  have e : ∀ n : Nat, (natContent n).length ≤ 49 → (Der.integer n).encode = [0x02, UInt8.ofNat (natContent n).length] ++ natContent n := by
    intro n hn
    show tlv 0 false 2 (natContent n) = _
    unfold tlv lengthOctets
    rw [if_pos (by omega)]
    rfl
  unfold ecdsaDer
  show tlv 0 true 16 ((Der.integer r).encode ++ ((Der.integer s).encode ++ [])) = _
  rw [e r hr, e s hs]
  unfold tlv lengthOctets
  rw [if_pos (by simp; omega)]
  simp only [List.append_nil, List.length_append, List.length_cons, List.length_nil]
  rw [show 0 + 1 + 1 + (natContent r).length + (0 + 1 + 1 + (natContent s).length) = (natContent r).length + (natContent s).length + 4 by omega]
  simp only [List.append_assoc]
  rfl

theorem sigCopy_ok (out buf pre piece post : Bytes) (stop offset : Nat) (hb : buf = pre ++ (piece ++ post)) (hp : offset = pre.length)
    (h1 : piece.length ≤ stop) (h2 : stop ≤ out.length) :
    sigCopy out buf stop offset piece.length = .ok (out.take (stop - piece.length) ++ piece ++ out.drop stop) := by
  subst hb hp
  unfold sigCopy
  rw [if_neg (by simp), if_neg (by omega)]
  simp

theorem sigTrim_ok (n off : Nat) (c : Bytes) :
    (sigTrim n off c.length) = (off + (c.length - (sigContent n c).length), (sigContent n c).length) := by
  unfold sigTrim sigContent
  split
  · rename_i h
    rw [List.length_drop]
    simp only [Prod.mk.injEq, and_true]
    omega
  · simp

theorem sigContent_suffix (n : Nat) (c : Bytes) : ∃ p, c = p ++ sigContent n c := by
  unfold sigContent
  split
  · exact ⟨c.take 1, (List.take_append_drop 1 c).symm⟩
  · exact ⟨[], rfl⟩

/-- Unwrapping the DER form gives both numbers in fixed size. -/
theorem sigUnwrap_ok (n r s : Nat) (hn : 0 < n) (hn' : n ≤ 48) (hr : r < 256 ^ n) (hs : s < 256 ^ n) (rest out : Bytes) (ho : 2 * n ≤ out.length) :
    (ecdsaDer r s).length ≤ 104 ∧ sigUnwrap (ecdsaDer r s ++ rest) (2 * n) out = .ok (toBE n r ++ toBE n s ++ out.drop (2 * n)) := by
  obtain ⟨lr, lr', er⟩ := sigContent_ok n r hr hn
  obtain ⟨ls, ls', es⟩ := sigContent_ok n s hs hn
  have hd := ecdsaDer_eq r s (by omega) (by omega)
  have tr := sigTrim_ok n 4 (natContent r)
  have ts := sigTrim_ok n (6 + (natContent r).length) (natContent s)
  obtain ⟨P, hP⟩ := sigContent_suffix n (natContent r)
  obtain ⟨Q, hQ⟩ := sigContent_suffix n (natContent s)
  rw [hd]
  have rb : (UInt8.ofNat (natContent r).length).toNat = (natContent r).length := u8_ofNat_toNat _ (by omega)
  have sb : (UInt8.ofNat (natContent s).length).toNat = (natContent s).length := u8_ofNat_toNat _ (by omega)
  refine ⟨by simp; omega, ?_⟩
  clear hd
  generalize UInt8.ofNat ((natContent r).length + (natContent s).length + 4) = x
  generalize UInt8.ofNat (natContent r).length = y at *
  generalize UInt8.ofNat (natContent s).length = z at *
  generalize sigContent n (natContent r) = R' at *
  generalize sigContent n (natContent s) = S' at *
  generalize natContent r = R at *
  generalize natContent s = S at *
  have lP : R.length = P.length + R'.length := by rw [hP, List.length_append]
  have lQ : S.length = Q.length + S'.length := by rw [hQ, List.length_append]
  generalize hb : [0x30, x, 0x02, y] ++ R ++ ([0x02, z] ++ S) ++ rest = buf
  have o1 : sigOctet buf 3 = .ok R.length := by
    unfold sigOctet
    rw [← hb]
    simp [rb]
  have o2 : sigOctet buf (5 + R.length) = .ok S.length := by
    unfold sigOctet
    rw [← hb, List.append_assoc, List.getElem?_append_right (by simp; omega)]
    simp only [List.length_append, List.length_cons, List.length_nil]
    rw [show 5 + R.length - (0 + 1 + 1 + 1 + 1 + R.length) = 1 by omega]
    simp [sb]
  have c1 := sigCopy_ok (List.replicate (2 * n) 0 ++ out.drop (2 * n)) buf ([0x30, x, 0x02, y] ++ P) R' ([0x02, z] ++ S ++ rest) n
    (4 + (R.length - R'.length)) (by rw [← hb, hP]; simp) (by simp; omega) lr' (by simp; omega)
  have e1 : (List.replicate (2 * n) 0 ++ out.drop (2 * n)).take (n - R'.length) ++ R' ++ (List.replicate (2 * n) 0 ++ out.drop (2 * n)).drop n =
      toBE n r ++ (List.replicate n 0 ++ out.drop (2 * n)) := by
    rw [← er, List.take_append_of_le_length (by simp; omega), List.take_replicate, List.drop_append_of_le_length (by simp; omega), List.drop_replicate,
      show 2 * n - n = n by omega, Nat.min_eq_left (by omega)]
  have lt : (toBE n r).length = n := toBE_length n r
  have c2 := sigCopy_ok (toBE n r ++ (List.replicate n 0 ++ out.drop (2 * n))) buf ([0x30, x, 0x02, y] ++ R ++ [0x02, z] ++ Q) S' rest (n + n)
    (6 + R.length + (S.length - S'.length)) (by rw [← hb, hQ]; simp) (by simp; omega) (by omega) (by simp [lt])
  have e2 : (toBE n r ++ (List.replicate n 0 ++ out.drop (2 * n))).take (n + n - S'.length) ++ S' ++
      (toBE n r ++ (List.replicate n 0 ++ out.drop (2 * n))).drop (n + n) = toBE n r ++ toBE n s ++ out.drop (2 * n) := by
    rw [show n + n - S'.length = (toBE n r).length + (n - S'.length) by omega, show n + n = (toBE n r).length + n by omega,
      List.take_length_add_append, List.drop_length_add_append, List.drop_left' (by simp), List.take_append_of_le_length (by simp),
      List.take_replicate, Nat.min_eq_left (by omega), ← es]
    simp
  unfold sigUnwrap
  simp only [o1, o2, bind, Except.bind, show 2 * n / 2 = n by omega, tr, ts]
  rw [if_neg (by omega)]
  simp only [c1, e1, c2, e2]

end Nat20

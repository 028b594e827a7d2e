import Verif.Lemmas.Stream
/-!
# C01-C05: the output stream
-/

namespace Nat20

/-- A call to the stream's write API. -/
inductive StreamCall where
  | prepend (src : Ptr) (len : UInt64)
  | put (c : UInt8)

/-- The caller's obligation: `src` points to at least `len` accessible bytes. -/
def StreamCall.Valid : StreamCall → Prop
  | .prepend src len => len.toNat ≤ src.data.length
  | .put _ => True

/-- The bytes handed over by a call. -/
def StreamCall.bytes : StreamCall → Bytes
  | .prepend src len => src.data.take len.toNat
  | .put c => [c]

/-- Executing a call. -/
def StreamCall.exec : StreamCall → W Unit
  | .prepend src len => streamPrepend (some src) len
  | .put c => streamPut c

/-- Executing calls one after the other. -/
def execAll : List StreamCall → W Unit
  | [] => Pure.pure ()
  | c :: cs => do c.exec; execAll cs

/-- The concatenation of everything handed over, the latest first. -/
def contents (calls : List StreamCall) : Bytes := (calls.reverse.map StreamCall.bytes).flatten

theorem prepends_exec (c : StreamCall) (h : c.Valid) : Prepends c.exec c.bytes := by
  cases c with
  | prepend src len => exact prepends_streamPrepend h
  | put c => exact prepends_byte c

theorem prepends_execAll (calls : List StreamCall) (h : ∀ c ∈ calls, c.Valid) :
    Prepends (execAll calls) (contents calls) := by
  induction calls with
  | nil => exact Prepends.pure
  | cons c cs ih =>
    refine ((prepends_exec c (h c (by simp))).bind (ih fun c hc => h c (by simp [hc]))).congr ?_
    simp [contents]

/-- Every writer that prepends `bs`, seen by a caller with a fresh stream on a real buffer. -/
theorem fresh_stream {w : W Unit} {bs : Bytes} (hw : Prepends w bs) (mem : Bytes) (size : UInt64)
    (hsize : size.toNat ≤ mem.length) :
    ∃ s' mem', w (some (streamInit (some mem) size)) = .ok ((), some s') ∧ s'.WF ∧
      s'.begin_ = some mem' ∧ mem'.length = mem.length ∧ mem'.drop size.toNat = mem.drop size.toNat ∧
      (s'.bufferOverflow = true ↔ size.toNat < bs.length) ∧
      (s'.writePositionOverflow = true ↔ 2 ^ 64 ≤ bs.length) ∧
      (s'.writePositionOverflow = false → s'.writePosition.toNat = bs.length) ∧
      (s'.bufferOverflow = false →
        mem' = mem.take (size.toNat - bs.length) ++ bs ++ mem.drop size.toNat ∧ callerReads s' = some bs) := by
  obtain ⟨s', e, hwf, hp⟩ := hw.run _ (streamInit_wf mem size hsize)
  have hsz : (streamInit (some mem) size).size = size := by simp [streamInit]
  have hpos : (streamInit (some mem) size).writePosition.toNat = 0 := by simp [streamInit]
  have hb : (streamInit (some mem) size).begin_ = some mem := rfl
  have hbo : (streamInit (some mem) size).bufferOverflow = false := rfl
  have hwpo : (streamInit (some mem) size).writePositionOverflow = false := rfl
  obtain ⟨mem', hm', hd⟩ := hp.keeps hbo mem hb
  have hlen := hp.same_buffer
  rw [hm', hb] at hlen
  have hwi := hp.wpo_iff
  have hbi := hp.bo_iff
  have hcount := hp.count
  rw [hpos] at hd hwi hbi hcount
  rw [hsz] at hd hbi
  rw [hwpo] at hwi
  rw [hbo] at hbi
  simp only [Nat.zero_add, Bool.false_eq_true, false_or] at hwi hbi hcount
  refine ⟨s', mem', e, hwf, hm', by simpa using hlen, by simpa using hd, hbi, hwi, hcount, ?_⟩
  intro hno
  have hf := hp.fits hno mem hb
  rw [hsz, hpos] at hf
  rw [hm'] at hf
  simp only [Nat.sub_zero] at hf
  have hf := Option.some.inj hf
  refine ⟨hf, ?_⟩
  have hwpo' : s'.writePositionOverflow = false := by
    cases hx : s'.writePositionOverflow with
    | false => rfl
    | true => rw [hwf.wpo_bo hx] at hno; cases hno
  have hle : bs.length ≤ size.toNat := by
    by_cases hh : size.toNat < bs.length
    · rw [hbi.2 hh] at hno; cases hno
    · omega
  have hsub : (s'.size - s'.writePosition).toNat = size.toNat - bs.length := by
    rw [UInt64.toNat_sub_of_le, hcount hwpo', hp.size_eq, hsz]
    rw [UInt64.le_iff_toNat_le, hcount hwpo', hp.size_eq, hsz]; exact hle
  unfold callerReads
  simp only [hm', streamData, streamByteCount, hsub, hcount hwpo']
  rw [hf, List.append_assoc, List.drop_append_of_le_length (by simp; omega),
    List.drop_eq_nil_of_le (by simp; omega)]
  simp

/-- The bytes a writer prepends are determined by the writer (up to the size of the address space). -/
theorem Prepends.unique {w : W Unit} {b1 b2 : Bytes} (h1 : Prepends w b1) (h2 : Prepends w b2) (hl : b1.length < 2 ^ 64) :
    b2 = b1 := by
  have e1 : (UInt64.ofNat b1.length).toNat = b1.length := UInt64.toNat_ofNat_of_lt' hl
  obtain ⟨s1, _, r1, _, _, _, _, c1, _, _, f1⟩ := fresh_stream h1 (List.replicate b1.length 0) (UInt64.ofNat b1.length)
    (by rw [e1]; simp)
  obtain ⟨s2, _, r2, _, _, _, _, c2, _, _, f2⟩ := fresh_stream h2 (List.replicate b1.length 0) (UInt64.ofNat b1.length)
    (by rw [e1]; simp)
  rw [r1] at r2
  cases r2
  have hno : s1.bufferOverflow = false := by
    cases hx : s1.bufferOverflow with
    | false => rfl
    | true => have := c1.1 hx; omega
  have a1 := (f1 hno).2
  have a2 := (f2 hno).2
  rw [a1] at a2
  exact (Option.some.inj a2).symm

/-- **C01.** If no buffer overflow is reported, the reported data region holds the concatenation of all prepended
sources, the latest first. -/
theorem C01_stream_contents (mem : Bytes) (size : UInt64) (hsize : size.toNat ≤ mem.length)
    (calls : List StreamCall) (hvalid : ∀ c ∈ calls, c.Valid) :
    ∃ s', execAll calls (some (streamInit (some mem) size)) = .ok ((), some s') ∧
      (streamHasBufferOverflow (some s') = false → callerReads s' = some (contents calls)) := by
  obtain ⟨s', mem', e, _, _, _, _, _, _, _, h⟩ := fresh_stream (prepends_execAll calls hvalid) mem size hsize
  exact ⟨s', e, fun hno => (h hno).2⟩

/-- Non-vacuity of C01: three writes, including an empty one, into a buffer which is larger than needed. -/
example :
    let calls : List StreamCall := [.prepend ⟨[], [1, 2, 3]⟩ 2, .prepend ⟨[], [9]⟩ 0, .put 7]
    (∀ c ∈ calls, c.Valid) ∧ contents calls = [7, 1, 2] ∧
    execAll calls (some (streamInit (some [0, 0, 0, 0, 5]) 4)) =
      .ok ((), some ⟨some [0, 7, 1, 2, 5], 4, 3, false, false⟩) := by
  refine ⟨?_, by decide, by decide⟩
  simp [StreamCall.Valid]

/-- **C02.** The byte count is exact for a NULL buffer and for any real one, whether or not the data fits. -/
theorem C02_sizing_exact (buffer : Option Bytes) (size : UInt64)
    (hsize : ∀ mem, buffer = some mem → size.toNat ≤ mem.length)
    (calls : List StreamCall) (hvalid : ∀ c ∈ calls, c.Valid) :
    ∃ s', execAll calls (some (streamInit buffer size)) = .ok ((), some s') ∧
      (streamHasWritePositionOverflow (some s') = false →
        (streamByteCount (some s')).toNat = (contents calls).length) := by
  have hwf : (streamInit buffer size).WF := by
    cases buffer with
    | none => exact streamInit_null_wf size
    | some mem => exact streamInit_wf mem size (hsize mem rfl)
  obtain ⟨s', e, _, hp⟩ := (prepends_execAll calls hvalid).run _ hwf
  refine ⟨s', e, fun h => ?_⟩
  have := hp.count h
  simpa [streamInit, streamByteCount] using this

/-- **C02.** Two-pass rendering: if a sizing pass of a writer with a NULL buffer does not overflow the position counter, a
second pass into any buffer of at least the reported size succeeds and the caller reads exactly the `n` bytes that were
announced — the same ones for every such buffer. -/
theorem C02_two_pass {w : W Unit} {bs : Bytes} (hw : Prepends w bs) (anySize : UInt64) :
    ∃ s1, w (some (streamInit none anySize)) = .ok ((), some s1) ∧ streamHasBufferOverflow (some s1) = true ∧
      (streamHasWritePositionOverflow (some s1) = false →
        ∀ (mem : Bytes) (size : UInt64), size.toNat ≤ mem.length → streamByteCount (some s1) ≤ size →
        ∃ s2, w (some (streamInit (some mem) size)) = .ok ((), some s2) ∧
          streamHasBufferOverflow (some s2) = false ∧ streamByteCount (some s2) = streamByteCount (some s1) ∧
          callerReads s2 = some bs ∧ bs.length = (streamByteCount (some s1)).toNat) := by
  obtain ⟨s1, e1, _, p1⟩ := hw.run _ (streamInit_null_wf anySize)
  refine ⟨s1, e1, (p1.bo_iff).2 (Or.inl rfl), ?_⟩
  intro hno mem size hsize hle
  have hc := p1.count hno
  have h0 : (streamInit none anySize).writePosition.toNat = 0 := rfl
  rw [h0, Nat.zero_add] at hc
  obtain ⟨s2, mem', e2, wf2, hm2, _, _, hbo, hwpo, hcount, hfit⟩ := fresh_stream hw mem size hsize
  have hle' : bs.length ≤ size.toNat := by
    rw [UInt64.le_iff_toNat_le] at hle; simp only [streamByteCount, hc] at hle; exact hle
  have hb2 : s2.bufferOverflow = false := by
    cases hx : s2.bufferOverflow with
    | false => rfl
    | true => have := hbo.1 hx; omega
  have hw2 : s2.writePositionOverflow = false := by
    cases hx : s2.writePositionOverflow with
    | false => rfl
    | true => rw [wf2.wpo_bo hx] at hb2; cases hb2
  refine ⟨s2, e2, hb2, ?_, (hfit hb2).2, ?_⟩
  · apply UInt64.toNat_inj.1
    simp only [streamByteCount, hcount hw2, hc]
  · simp only [streamByteCount, hc]

/-- **C02.** Without a buffer the announced size is ignored: no writer, and hence no caller, can tell the difference. -/
theorem C02_null_size_ignored (w : W Unit) (size1 size2 : UInt64) :
    w (some (streamInit none size1)) = w (some (streamInit none size2)) := rfl

/-- Non-vacuity of C02: a sizing pass followed by a real one. -/
example :
    execAll [.put 1, .prepend ⟨[], [2, 3]⟩ 2] (some (streamInit none 0)) = .ok ((), some ⟨none, 0, 3, true, false⟩) ∧
    execAll [.put 1, .prepend ⟨[], [2, 3]⟩ 2] (some (streamInit (some [0, 0, 0]) 3)) =
      .ok ((), some ⟨some [2, 3, 1], 3, 3, false, false⟩) := by decide

/-- **C03.** Both flags are exact, for every history. -/
theorem C03_flags_exact (buffer : Option Bytes) (size : UInt64)
    (hsize : ∀ mem, buffer = some mem → size.toNat ≤ mem.length)
    (calls : List StreamCall) (hvalid : ∀ c ∈ calls, c.Valid) :
    ∃ s', execAll calls (some (streamInit buffer size)) = .ok ((), some s') ∧
      (streamHasBufferOverflow (some s') = true ↔ buffer = none ∨ size.toNat < (contents calls).length) ∧
      (streamHasWritePositionOverflow (some s') = true ↔ 2 ^ 64 ≤ (contents calls).length) ∧
      (streamHasWritePositionOverflow (some s') = true → streamHasBufferOverflow (some s') = true) := by
  cases buffer with
  | none =>
    obtain ⟨s', e, hwf, hp⟩ := (prepends_execAll calls hvalid).run _ (streamInit_null_wf size)
    refine ⟨s', e, ?_, ?_, hwf.wpo_bo⟩
    · have := (hp.bo_iff).2 (Or.inl rfl)
      simp [streamHasBufferOverflow, this]
    · have := hp.wpo_iff
      simpa [streamInit, streamHasWritePositionOverflow] using this
  | some mem =>
    obtain ⟨s', _, e, hwf, _, _, _, h1, h2, _⟩ := fresh_stream (prepends_execAll calls hvalid) mem size (hsize mem rfl)
    exact ⟨s', e, by simpa [streamHasBufferOverflow] using h1, h2, hwf.wpo_bo⟩

/-- **C03.** Flags are sticky: no further calls clear them, and the reachable states are exactly well behaved
(`Stream.WF`). -/
theorem C03_flags_sticky (buffer : Option Bytes) (size : UInt64)
    (hsize : ∀ mem, buffer = some mem → size.toNat ≤ mem.length)
    (calls more : List StreamCall) (hvalid : ∀ c ∈ calls ++ more, c.Valid) :
    ∃ s1 s2, execAll calls (some (streamInit buffer size)) = .ok ((), some s1) ∧
      execAll more (some s1) = .ok ((), some s2) ∧ s1.WF ∧ s2.WF ∧
      (streamHasBufferOverflow (some s1) = true → streamHasBufferOverflow (some s2) = true) ∧
      (streamHasWritePositionOverflow (some s1) = true → streamHasWritePositionOverflow (some s2) = true) := by
  have hwf : (streamInit buffer size).WF := by
    cases buffer with
    | none => exact streamInit_null_wf size
    | some mem => exact streamInit_wf mem size (hsize mem rfl)
  obtain ⟨s1, e1, w1, _⟩ := (prepends_execAll calls fun c hc => hvalid c (by simp [hc])).run _ hwf
  obtain ⟨s2, e2, w2, p2⟩ := (prepends_execAll more fun c hc => hvalid c (by simp [hc])).run _ w1
  exact ⟨s1, s2, e1, e2, w1, w2, fun h => (p2.bo_iff).2 (Or.inl h), fun h => (p2.wpo_iff).2 (Or.inl h)⟩

/-- Non-vacuity of C03: the position counter wraps when it passes `2^64 - 1`; both flags are raised and stay raised. -/
example :
    (streamPut 1 (some ⟨none, 0, 0xffffffffffffffff, true, false⟩)) = .ok ((), some ⟨none, 0, 0, true, true⟩) ∧
    (streamPut 1 (some ⟨none, 0, 0, true, true⟩)) = .ok ((), some ⟨none, 0, 1, true, true⟩) := by decide

/-- **C04.** Memory safety of every history: no undefined behaviour (in particular no access outside of the memory at
`buffer`), all memory behind the announced size keeps its value, and without overflow so does all memory in front of the
reported data region. -/
theorem C04_stays_inside (mem : Bytes) (size : UInt64) (hsize : size.toNat ≤ mem.length)
    (calls : List StreamCall) (hvalid : ∀ c ∈ calls, c.Valid) :
    ∃ s' mem', execAll calls (some (streamInit (some mem) size)) = .ok ((), some s') ∧ s'.begin_ = some mem' ∧
      mem'.length = mem.length ∧
      (∀ i, size.toNat ≤ i → mem'[i]? = mem[i]?) ∧
      (streamHasBufferOverflow (some s') = false →
        ∀ i off, streamData (some s') = some off → i < off.toNat → mem'[i]? = mem[i]?) := by
  obtain ⟨s', mem', e, wf, hm, hl, hd, hbi, _, hcount, h⟩ := fresh_stream (prepends_execAll calls hvalid) mem size hsize
  refine ⟨s', mem', e, hm, hl, ?_, ?_⟩
  · intro i hi
    have := congrArg (fun l => l[i - size.toNat]?) hd
    simp only [List.getElem?_drop] at this
    rwa [Nat.add_sub_cancel' hi] at this
  · intro hno i off hoff hi
    have hno : s'.bufferOverflow = false := hno
    obtain ⟨hmem, _⟩ := h hno
    have hwpo' : s'.writePositionOverflow = false := by
      cases hx : s'.writePositionOverflow with
      | false => rfl
      | true => rw [wf.wpo_bo hx] at hno; cases hno
    have hle : (contents calls).length ≤ size.toNat := by
      by_cases hh : size.toNat < (contents calls).length
      · rw [hbi.2 hh] at hno; cases hno
      · omega
    have hsz : s'.size = size := by
      obtain ⟨s'', e', _, hp⟩ := (prepends_execAll calls hvalid).run _ (streamInit_wf mem size hsize)
      rw [e] at e'; cases e'
      rw [hp.size_eq]; simp [streamInit]
    have hsub : off.toNat = size.toNat - (contents calls).length := by
      simp only [streamData, Option.some.injEq] at hoff
      rw [← hoff, UInt64.toNat_sub_of_le, hcount hwpo', hsz]
      rw [UInt64.le_iff_toNat_le, hcount hwpo', hsz]; exact hle
    rw [hmem, List.append_assoc, List.getElem?_append_left (by simp; omega), List.getElem?_take]
    rw [if_pos (by omega)]

/-- **C04.** Bytes already in the data region are never changed by later calls, whether these fit or overflow. -/
theorem C04_committed_bytes_stay (s : Stream) (hs : s.WF) (hgood : streamHasBufferOverflow (some s) = false)
    (calls : List StreamCall) (hvalid : ∀ c ∈ calls, c.Valid) (mem : Bytes) (hmem : s.begin_ = some mem) :
    ∃ s' mem', execAll calls (some s) = .ok ((), some s') ∧ s'.begin_ = some mem' ∧
      ∀ i, s.size.toNat - s.writePosition.toNat ≤ i → mem'[i]? = mem[i]? := by
  obtain ⟨s', e, _, p⟩ := (prepends_execAll calls hvalid).run s hs
  obtain ⟨mem', hm', hd⟩ := p.keeps hgood mem hmem
  refine ⟨s', mem', e, hm', fun i hi => ?_⟩
  have := congrArg (fun l => l[i - (s.size.toNat - s.writePosition.toNat)]?) hd
  simp only [List.getElem?_drop] at this
  rwa [Nat.add_sub_cancel' hi] at this

/-- **C04.** A call which does not fit (including one that wraps the counter) changes no byte, nor does any call on a
stream which overflowed before. -/
theorem C04_all_or_nothing (s : Stream) (c : StreamCall)
    (hover : streamHasBufferOverflow (some s) = true ∨ s.size.toNat < s.writePosition.toNat + c.bytes.length)
    (hs : s.WF) (hvalid : c.Valid) :
    ∃ s', c.exec (some s) = .ok ((), some s') ∧ s'.bufferOverflow = true ∧ s'.begin_ = s.begin_ := by
  obtain ⟨s', e, _, p⟩ := (prepends_exec c hvalid).run s hs
  have hb : s'.bufferOverflow = true := (p.bo_iff).2 (by
    rcases hover with h | h
    · exact Or.inl h
    · exact Or.inr h)
  refine ⟨s', e, hb, ?_⟩
  have key : ∀ src len, streamPrepend (some src) len (some s) = .ok ((), some s') → s'.begin_ = s.begin_ := by
    intro src len he
    unfold streamPrepend at he
    simp only at he
    split at he
    · cases he; rfl
    · rename_i hnb
      split at he
      · cases he
        exact absurd hb hnb
      · cases he
  cases c with
  | prepend src len => exact key _ _ e
  | put c => exact key _ _ e

/-- Non-vacuity of C04: the second write does not fit and leaves the buffer alone, as does the third, which would. -/
example :
    execAll [.put 1, .prepend ⟨[], [2, 3]⟩ 2, .put 4] (some (streamInit (some [8, 8, 9]) 2)) =
      .ok ((), some ⟨some [8, 1, 9], 2, 4, true, false⟩) := by decide

/-- **C05** (stream part). All stream functions accept a NULL stream. -/
theorem C05_null_stream (calls : List StreamCall) (hvalid : ∀ c ∈ calls, c.Valid) :
    execAll calls none = .ok ((), none) ∧ streamHasBufferOverflow none = true ∧
      streamHasWritePositionOverflow none = true ∧ streamByteCount none = 0 ∧ streamData none = none :=
  ⟨(prepends_execAll calls hvalid).null, rfl, rfl, rfl, rfl⟩

end Nat20

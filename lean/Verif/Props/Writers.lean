import Verif.Lemmas.WritersAll
import Verif.Props.Steps
import Verif.Props.X509
/-!
# Properties C75 and C76: rendering from and to the same memory, and in threads
-/

namespace Nat20

open Pki

/-! ## C75 -/

/-- **C75** (footprint).  Whatever is in memory, rendering reads only octets that are rendered (and those next to an integer), and writes only the unwritten part of the buffer. -/
theorem C75_footprint (n : Nat) (cs : Content n) (v : Option SVars) : (Content.prog n cs v).Within (Content.MayRead n cs) (Unwritten v) (fun _ => False) fun _ => True :=
  ((follows_content (m0 := fun _ => []) (L := Content.Reads n cs) n cs (mayRead_of_reads n cs) (fun _ h => h) fun _ h => h).within v).mono
    (fun _ h => h) (fun _ h => h) (fun _ h => h) fun _ _ => trivial

/-- **C75** (aliasing).  Take any sequence of calls of rendering functions, with callbacks of any depth, on any stream, where no octet that is to be rendered lies in the
unwritten part of the buffer.  If the calls are defined for copies of their arguments, they are defined, they give the same stream, and no octet outside of the unwritten part
of the buffer changes. -/
theorem C75_like_copies (n : Nat) (cs : Content n) (m : Memory) (v : Option SVars) (havoid : ∀ a, Content.Reads n cs a → ¬ Unwritten v a) (s : Option Stream)
    (h : Content.value m n cs (v.map (SVars.view m)) = .ok ((), s)) :
    ∃ v' m', (Content.prog n cs v).run m = .ok (((), v'), m') ∧ v'.map (SVars.view m') = s ∧ v'.map SVars.begin_ = v.map SVars.begin_ ∧
      (∀ a, ¬ Unwritten v a → m'.get a = m.get a) ∧ m'.SameShape m := by
  have hf := follows_content (m0 := m) (L := Content.Reads n cs) (L' := Content.MayRead n cs) n cs (mayRead_of_reads n cs) (fun _ h => h) fun _ h => h
  obtain ⟨v', m', h1, h2, h3, h4⟩ := hf.sim m v () s (fun _ _ => rfl) (fun a ha hr => havoid a hr ha) h
  exact ⟨v', m', h1, h2, (within_result (hf.within v) m m' _ h1).2, h3, h4⟩

/-- **C75** (what is rendered).  If the calls, made for copies of their arguments, prepend `bs` to every stream (which is how the other properties describe the rendering
functions), then they prepend `bs` to this one. -/
theorem C75_prepends (n : Nat) (cs : Content n) (m : Memory) (v : SVars) (hwf : (v.view m).WF) (havoid : ∀ a, Content.Reads n cs a → ¬ Unwritten (some v) a) (bs : Bytes)
    (h : Prepends (Content.value m n cs) bs) :
    ∃ v' m', (Content.prog n cs (some v)).run m = .ok (((), some v'), m') ∧ Prepended (v.view m) (v'.view m') bs ∧ v'.begin_ = v.begin_ ∧
      (∀ a, ¬ Unwritten (some v) a → m'.get a = m.get a) ∧ m'.SameShape m := by
  obtain ⟨s', hs, -, hp⟩ := h.run _ hwf
  obtain ⟨v', m', h1, h2, h3, h4, h5⟩ := C75_like_copies n cs m (some v) havoid _ hs
  cases v' with
  | none => cases h2
  | some v' =>
    simp only [Option.map_some, Option.some.injEq] at h2 h3
    exact ⟨v', m', h1, by rw [h2]; exact hp, h3, h4, h5⟩

theorem memory_ext (m m' : Memory) (h : ∀ a, m.get a = m'.get a) : m = m' := by
  funext r
  exact List.ext_getElem? fun i => h ⟨r, i⟩

/-- **C75** (the whole effect).  If `bs` fits into the buffer, then after the calls it is in front of what was rendered before, and no other octet of the memory has changed. -/
theorem C75_memory (n : Nat) (cs : Content n) (m : Memory) (v : SVars) (hwf : (v.view m).WF) (havoid : ∀ a, Content.Reads n cs a → ¬ Unwritten (some v) a) (bs : Bytes)
    (h : Prepends (Content.value m n cs) bs) (b : Addr) (hb : v.begin_ = some b) (hgood : v.bufferOverflow = false) (hfit : v.writePosition.toNat + bs.length ≤ v.size.toNat) :
    (Content.prog n cs (some v)).run m =
      .ok (((), some { v with writePosition := v.writePosition + UInt64.ofNat bs.length }), m.write (b.plus (v.size.toNat - v.writePosition.toNat - bs.length)) bs) := by
  obtain ⟨v', m', h1, hp, hbe, hframe, hshape⟩ := C75_prepends n cs m v hwf havoid bs h
  have hlt := v.size.toNat_lt
  have hbo : v'.bufferOverflow = false := by
    have := hp.bo_iff
    cases hx : v'.bufferOverflow with
    | false => rfl
    | true =>
      rcases this.1 hx with hy | hy
      · rw [show (v.view m).bufferOverflow = v.bufferOverflow from rfl, hgood] at hy; cases hy
      · have : v.size.toNat < v.writePosition.toNat + bs.length := hy
        omega
  have hw : v.writePositionOverflow = false := by
    cases hx : v.writePositionOverflow with
    | false => rfl
    | true => exact absurd (hwf.wpo_bo hx) (by rw [show (v.view m).bufferOverflow = v.bufferOverflow from rfl, hgood]; simp)
  have hwpo : v'.writePositionOverflow = false := by
    have := hp.wpo_iff
    cases hx : v'.writePositionOverflow with
    | false => rfl
    | true =>
      rcases this.1 hx with hy | hy
      · rw [show (v.view m).writePositionOverflow = v.writePositionOverflow from rfl, hw] at hy; cases hy
      · have : 2 ^ 64 ≤ v.writePosition.toNat + bs.length := hy
        omega
  have hpos : v'.writePosition = v.writePosition + UInt64.ofNat bs.length := by
    have : v'.writePosition.toNat = v.writePosition.toNat + bs.length := hp.count hwpo
    apply UInt64.toNat_inj.1
    rw [this, UInt64.toNat_add, UInt64.toNat_ofNat_of_lt' (by show bs.length < 2 ^ 64; omega), Nat.mod_eq_of_lt (by omega)]
  have hsize : v'.size = v.size := hp.size_eq
  have hv : v' = { v with writePosition := v.writePosition + UInt64.ofNat bs.length } := by
    obtain ⟨b1, s1, p1, o1, q1⟩ := v'
    obtain ⟨b2, s2, p2, o2, q2⟩ := v
    simp only at hbe hsize hpos hbo hwpo hgood hw ⊢
    rw [hbe, hsize, hpos, hbo, hwpo, hgood, hw]
  have htail : m'.tail b = (m.tail b).take (v.size.toNat - v.writePosition.toNat - bs.length) ++ bs ++ (m.tail b).drop (v.size.toNat - v.writePosition.toNat) := by
    have := hp.fits hbo (m.tail b) (by simp only [SVars.view, hb, Option.map_some])
    simp only [SVars.view, hbe, hb, Option.map_some, Option.some.injEq] at this
    exact this
  obtain ⟨mem, hg1, hg2, hg3⟩ := hwf.good hgood
  simp only [SVars.view, hb, Option.map_some, Option.some.injEq] at hg1 hg2 hg3
  subst hg1
  rw [h1, hv]
  congr 2
  refine memory_ext _ _ fun a => ?_
  by_cases hz : v.size.toNat = 0
  · have hbs : bs = [] := List.length_eq_zero_iff.1 (by omega)
    rw [hframe a fun ⟨s, c, e1, e2, e3, e4, e5, e6⟩ => by cases e1; omega]
    unfold Memory.get Memory.write
    subst hbs
    simp
  have hl : (m.tail b).length = (m b.region).length - b.off := by unfold Memory.tail; rw [List.length_drop]
  have hl2 : (m.tail b).length ≥ v.size.toNat := hg2
  have t2 : ((m b.region).take (b.off + (v.size.toNat - v.writePosition.toNat - bs.length))).length = b.off + (v.size.toNat - v.writePosition.toNat - bs.length) := by
    rw [List.length_take]; omega
  by_cases ha : a.region = b.region ∧ b.off ≤ a.off
  · obtain ⟨ha1, ha2⟩ := ha
    have e1 : m'.get a = (m'.tail b)[a.off - b.off]? := by
      unfold Memory.get Memory.tail
      rw [List.getElem?_drop, ha1]
      congr 1
      omega
    rw [e1, htail]
    unfold Memory.get Memory.write Addr.plus
    simp only [ha1, if_true]
    rw [List.append_assoc, List.append_assoc]
    have t1 : ((m.tail b).take (v.size.toNat - v.writePosition.toNat - bs.length)).length = v.size.toNat - v.writePosition.toNat - bs.length := by rw [List.length_take]; omega
    · by_cases hc : a.off - b.off < v.size.toNat - v.writePosition.toNat - bs.length
      · rw [List.getElem?_append_left (by omega), List.getElem?_append_left (by omega), List.getElem?_take, List.getElem?_take, if_pos hc, if_pos (by omega)]
        unfold Memory.tail
        rw [List.getElem?_drop]
        congr 1
        omega
      · rw [List.getElem?_append_right (by omega), t1, List.getElem?_append_right (l₁ := (m b.region).take (b.off + (v.size.toNat - v.writePosition.toNat - bs.length))) (by omega), t2]
        rw [show a.off - (b.off + (v.size.toNat - v.writePosition.toNat - bs.length)) = a.off - b.off - (v.size.toNat - v.writePosition.toNat - bs.length) by omega]
        by_cases hd : a.off - b.off - (v.size.toNat - v.writePosition.toNat - bs.length) < bs.length
        · rw [List.getElem?_append_left hd, List.getElem?_append_left hd]
        · rw [List.getElem?_append_right (by omega), List.getElem?_append_right (by omega), List.getElem?_drop, List.getElem?_drop]
          unfold Memory.tail
          rw [List.getElem?_drop]
          congr 1
          omega
  · rw [hframe a fun ⟨s, c, e1, e2, e3, e4, e5, e6⟩ => by
      cases e1
      rw [hb] at e2
      cases e2
      exact ha ⟨e4, e5⟩]
    unfold Memory.get Memory.write Addr.plus
    simp only
    split
    · next hr =>
      rw [List.append_assoc, List.getElem?_append_left, List.getElem?_take]
      · rw [if_pos]
        have : ¬ b.off ≤ a.off := fun h => ha ⟨hr, h⟩
        omega
      · have hno : ¬ b.off ≤ a.off := fun h => ha ⟨hr, h⟩
        rw [hr]
        omega
    · rfl

/-- A stream that was just made for a buffer is as the theorems ask if the buffer exists. -/
theorem init_wf (m : Memory) (b : Addr) (size : UInt64) (hroom : b.off + size.toNat ≤ (m b.region).length) : ((streamInitP (some b) size).view m).WF := by
  refine ⟨fun h => (by cases h), fun _ => ⟨m.tail b, rfl, ?_, ?_⟩⟩
  · show size.toNat ≤ (m.tail b).length
    unfold Memory.tail
    rw [List.length_drop]
    omega
  · exact Nat.zero_le _

/-- **C75** (a new stream).  With or without buffer a new stream is as in the model without addresses. -/
theorem C75_init (m : Memory) (buffer : Option Addr) (size : UInt64) : (streamInitP buffer size).view m = streamInit (buffer.map m.tail) size := by
  cases buffer <;> rfl

/-- Everything in the buffer of a new stream is unwritten. -/
theorem unwritten_init (b : Addr) (size : UInt64) (a : Addr) : Unwritten (some (streamInitP (some b) size)) a ↔ b.Covers size.toNat a.region a.off := by
  constructor
  · rintro ⟨s, c, e1, e2, -, e4, e5, e6⟩
    cases e1
    cases e2
    exact ⟨e4, e5, e6⟩
  · rintro ⟨h1, h2, h3⟩
    exact ⟨_, b, rfl, rfl, rfl, h1, h2, h3⟩

/-- **C75** (a new stream).  Rendering into a buffer, where nothing that is rendered lies in the buffer, puts the rendered octets at the end of the buffer and changes nothing else. -/
theorem C75_new_stream (n : Nat) (cs : Content n) (m : Memory) (b : Addr) (size : UInt64) (hroom : b.off + size.toNat ≤ (m b.region).length)
    (havoid : ∀ a, Content.Reads n cs a → ¬ b.Covers size.toNat a.region a.off) (bs : Bytes) (h : Prepends (Content.value m n cs) bs) (hfit : bs.length ≤ size.toNat) :
    (Content.prog n cs (some (streamInitP (some b) size))).run m =
      .ok (((), some ⟨some b, size, UInt64.ofNat bs.length, false, false⟩), m.write (b.plus (size.toNat - bs.length)) bs) := by
  have := C75_memory n cs m (streamInitP (some b) size) (init_wf m b size hroom) (fun a ha hu => havoid a ha ((unwritten_init b size a).1 hu)) bs h b rfl rfl
    (by show 0 + bs.length ≤ size.toNat; omega)
  rw [this]
  simp [streamInitP]

/-- **C75** (too small a buffer).  If the octets do not fit, this is reported along with the number of octets that are needed, and no octet outside of the buffer changes. -/
theorem C75_too_small (n : Nat) (cs : Content n) (m : Memory) (b : Addr) (size : UInt64) (hroom : b.off + size.toNat ≤ (m b.region).length)
    (havoid : ∀ a, Content.Reads n cs a → ¬ b.Covers size.toNat a.region a.off) (bs : Bytes) (h : Prepends (Content.value m n cs) bs) (hbig : size.toNat < bs.length) (hlt : bs.length < 2 ^ 64) :
    ∃ m', (Content.prog n cs (some (streamInitP (some b) size))).run m = .ok (((), some ⟨some b, size, UInt64.ofNat bs.length, true, false⟩), m') ∧
      m.SameExcept m' (some b) size.toNat := by
  obtain ⟨v', m', h1, hp, h3, h4, h5⟩ := C75_prepends n cs m (streamInitP (some b) size) (init_wf m b size hroom) (fun a ha hu => havoid a ha ((unwritten_init b size a).1 hu)) bs h
  have hz : ((streamInitP (some b) size).view m).writePosition.toNat = 0 := rfl
  have hs : ((streamInitP (some b) size).view m).size = size := rfl
  have e1 : v'.bufferOverflow = true := hp.bo_iff.2 (.inr (by rw [hz, hs]; omega))
  have e2 : v'.writePositionOverflow = false := by
    cases hx : v'.writePositionOverflow with
    | false => rfl
    | true =>
      rcases hp.wpo_iff.1 hx with hy | hy
      · cases hy
      · rw [hz] at hy; omega
  have e3 : v'.writePosition = UInt64.ofNat bs.length := by
    have : v'.writePosition.toNat = 0 + bs.length := hp.count e2
    apply UInt64.toNat_inj.1
    rw [this, UInt64.toNat_ofNat_of_lt' (by show bs.length < 2 ^ 64; omega), Nat.zero_add]
  have e4 : v'.size = size := hp.size_eq
  refine ⟨m', ?_, ?_⟩
  · rw [h1]
    obtain ⟨b1, s1, p1, o1, q1⟩ := v'
    simp only at e1 e2 e3 e4 h3
    rw [e1, e2, e3, e4, h3]
    rfl
  · exact fun r i hno => h4 ⟨r, i⟩ fun hu => hno b rfl ((unwritten_init b size ⟨r, i⟩).1 hu)

/-- **C75** (sizing).  With no stream, or with one that has no buffer or has overflowed, rendering changes no memory; there is no condition on where the arguments are. -/
theorem C75_sizing (n : Nat) (cs : Content n) (m : Memory) (v : Option SVars) (hv : ∀ s, v = some s → s.begin_ = none ∨ s.bufferOverflow = true) (s : Option Stream)
    (h : Content.value m n cs (v.map (SVars.view m)) = .ok ((), s)) : ∃ v', (Content.prog n cs v).run m = .ok (((), v'), m) ∧ v'.map (SVars.view m) = s := by
  have hun : ∀ a, ¬ Unwritten v a := by
    rintro a ⟨t, b, e1, e2, e3, -⟩
    rcases hv t e1 with h | h
    · rw [h] at e2; cases e2
    · rw [h] at e3; cases e3
  obtain ⟨v', m', h1, h2, -, h4, -⟩ := C75_like_copies n cs m v (fun a _ => hun a) s h
  have : m' = m := memory_ext _ _ fun a => h4 a (hun a)
  subst this
  exact ⟨v', h1, h2⟩

/-- **C75** (sizing).  A sizing pass (NULL buffer, whatever size is given with it) changes no memory and reports the number of octets. -/
theorem C75_null_buffer (n : Nat) (cs : Content n) (m : Memory) (anySize : UInt64) (bs : Bytes) (h : Prepends (Content.value m n cs) bs) :
    ∃ v, (Content.prog n cs (some (streamInitP none anySize))).run m = .ok (((), some v), m) ∧ v.begin_ = none ∧ v.size = 0 ∧ v.bufferOverflow = true ∧
      (v.writePositionOverflow = true ↔ 2 ^ 64 ≤ bs.length) ∧ (v.writePositionOverflow = false → v.writePosition.toNat = bs.length) := by
  obtain ⟨s, e, _, p⟩ := h.run _ (streamInit_null_wf anySize)
  obtain ⟨v', h1, h2⟩ := C75_sizing n cs m (some (streamInitP none anySize)) (fun t ht => by cases ht; exact Or.inl rfl) (some s)
    (by rw [Option.map_some, C75_init]; exact e)
  cases v' with
  | none => cases h2
  | some v =>
    have h2 : v.view m = s := Option.some.inj h2
    subst h2
    have h0 : (streamInit none anySize).writePosition.toNat = 0 := rfl
    refine ⟨v, h1, ?_, p.size_eq, p.bo_iff.2 (Or.inl rfl), ?_, fun hw => ?_⟩
    · have := p.dead rfl
      cases hb : v.begin_ with
      | none => rfl
      | some b => simp [SVars.view, hb, streamInit] at this
    · have := p.wpo_iff
      rw [h0, Nat.zero_add] at this
      exact this.trans (by simp [streamInit])
    · have := p.count hw
      rw [h0, Nat.zero_add] at this
      exact this

theorem prepends_single (c : RenderCall) (bs : Bytes) (h : Prepends c.exec bs) : Prepends (renderAll [c]) bs := by
  have e : renderAll [c] = c.exec := by
    show (do c.exec; Pure.pure ()) = c.exec
    funext s
    show (c.exec s).bind (fun r => .ok ((), r.2)) = c.exec s
    cases c.exec s <;> rfl
  rw [e]
  exact h

/-- **C75** (certificates).  A certificate whose fields are anywhere in memory but in the buffer is put at the end of the buffer; it is the DER encoding of the field values as
they are in memory, and nothing else changes. -/
theorem C75_certificate (k : Nat) (fr : Frame) (c : RX509 (Content k)) (content : Extension → Bytes) (m : Memory) (h : CertArg fr content ((c.map (Content.value m k)).value m))
    (b : Addr) (size : UInt64) (hroom : b.off + size.toNat ≤ (m b.region).length) (havoid : ∀ a, c.Has (Content.Reads k) RSlice.Has a → ¬ b.Covers size.toNat a.region a.off)
    (bs : Bytes) (hbs : bs = (certValue content ((c.map (Content.value m k)).value m)).der.encode) (hfit : bs.length ≤ size.toNat) :
    (x509CertP fr (some (c.map (Content.prog k))) (some (streamInitP (some b) size))).run m =
      .ok (((), some ⟨some b, size, UInt64.ofNat bs.length, false, false⟩), m.write (b.plus (size.toNat - bs.length)) bs) ∧
    Der.parse bs = some (certValue content ((c.map (Content.value m k)).value m)).der := by
  have hp := prepends_cert fr content _ h
  rw [← hbs] at hp
  have := C75_new_stream (k + 1) [.cert fr (some c)] m b size hroom (by
    rintro a ⟨d, hd, ha⟩
    cases hd with
    | head => obtain ⟨x, hx, ha⟩ := ha; cases hx; exact havoid a ha
    | tail _ hd => cases hd) bs (prepends_single (.cert fr (some ((c.map (Content.value m k)).value m))) bs hp) hfit
  refine ⟨?_, ?_⟩
  · rw [← this]
    have e : ∀ v, Content.prog (k + 1) [.cert fr (some c)] v = (x509CertP fr (some (c.map (Content.prog k))) v >>= fun r => .done ((), r.2)) := fun v => rfl
    rw [e, bind_eq, run_seq]
    cases (x509CertP fr (some (c.map (Content.prog k))) (some (streamInitP (some b) size))).run m <;> rfl
  · rw [hbs]
    exact strictly_parsed _ (classOk_cert _) (by rw [← hbs]; have := size.toNat_lt; omega)

/-! ### Examples -/

/-- The fields of the example certificate, followed by a buffer of 200 octets, all in one object. -/
def certMemory : Memory := fun r => if r = .caller 0 then
    [0x41, 0x42, 0x0f, 0xa0, 0x00, 0x81] ++ ascii "20300101000000Z" ++ [0xab, 0xff, 0xde, 0xad, 0xbe, 0xef] ++ List.replicate 200 9
  else []

/-- The octets from `off` on in the object. -/
def inCert (off : Nat) : Source := .mem ⟨.caller 0, off⟩

def certName : RName where
  elementCount := 2
  elements := #v[⟨some OID_COMMON_NAME, ⟨2, some (inCert 0)⟩⟩, ⟨some OID_SERIAL_NUMBER, ⟨2, some (inCert 2)⟩⟩,
    ⟨none, RSlice.null⟩, ⟨none, RSlice.null⟩, ⟨none, RSlice.null⟩, ⟨none, RSlice.null⟩, ⟨none, RSlice.null⟩, ⟨none, RSlice.null⟩]

def certTbs : RTbs (Content 1) where
  serialNumber := ⟨2, some (inCert 4)⟩
  signatureAlgorithm := ⟨some OID_ED25519, 0, none⟩
  issuerName := certName
  validity := ⟨RSlice.null, ⟨15, some (inCert 6)⟩⟩
  subjectName := certName
  subjectPublicKeyInfo := ⟨exampleKey.algorithmIdentifier, 11, some (inCert 21)⟩
  extensions := ⟨1, some [⟨some OID_KEY_USAGE, true, some [.keyUsage (some (keyUsageOf [5]))]⟩]⟩

def certOfMemory : RX509 (Content 1) := ⟨some certTbs, ⟨some OID_ED25519, 0, none⟩, 32, some (inCert 23)⟩

theorem certName_arg : NameArg (certName.value certMemory) := by
  intro _ r hr
  have e : (certName.value certMemory).elements.toList.take (certName.value certMemory).elementCount.toNat =
      [⟨some OID_COMMON_NAME, ⟨2, some ⟨[], [0x41, 0x42]⟩⟩⟩, ⟨some OID_SERIAL_NUMBER, ⟨2, some ⟨[], [0x0f, 0xa0]⟩⟩⟩] := by
    unfold RName.value
    rw [Vector.toList_map]
    rfl
  rw [e] at hr
  simp only [List.mem_cons, List.not_mem_nil, or_false] at hr
  rcases hr with rfl | rfl <;> exact slice_valid_of_le _ _ _ (by decide)

theorem certTbs_arg (fr : Frame) : TbsArg fr exampleContent ((certTbs.map (Content.value certMemory 1)).value certMemory) where
  serial := ⟨slice_valid_of_le _ _ _ (by decide), fun h => absurd h (by decide), fun _ _ => Or.inr (by decide)⟩
  issuer := certName_arg
  validity := ⟨(by intro p hp; cases hp), slice_valid_of_le _ _ _ (by decide)⟩
  subject := certName_arg
  spki := exampleKey_arg
  extensions := by
    intro l hl
    cases hl
    refine ⟨by decide, fun x hx => ?_⟩
    cases hx with
    | tail _ hx => cases hx
    | head =>
      show Prepends (renderAll [.keyUsage (some (keyUsageOf [5]))]) [3, 2, 2, 4]
      refine prepends_single _ _ ?_
      exact (prepends_bits (some ⟨[], [0x04, 0x00]⟩) 6 (by intro q hq; cases hq; decide)).congr (by decide +kernel)

/-- Non-vacuity of `C75_certificate`: the example meets the hypotheses with the buffer right behind the fields, in the same object. -/
example (fr : Frame) : CertArg fr exampleContent ((certOfMemory.map (Content.value certMemory 1)).value certMemory) ∧
    (∀ a, certOfMemory.Has (Content.Reads 1) RSlice.Has a → ¬ Addr.Covers ⟨.caller 0, 27⟩ 200 a.region a.off) ∧ 27 + 200 ≤ (certMemory (.caller 0)).length := by
  refine ⟨⟨fun t ht => (by cases ht; exact certTbs_arg fr), fun q hq => (by cases hq; decide)⟩, fun a ha => ?_, by decide +kernel⟩
  have hs : ∀ n off, off + n ≤ 27 → (inCert off).Has n a → ¬ Addr.Covers ⟨.caller 0, 27⟩ 200 a.region a.off := fun n off h hx hc => by
    have h1 := hx.2.2
    have h2 := hc.2.1
    simp only at h1 h2
    omega
  have hname : certName.Has a → ¬ Addr.Covers ⟨.caller 0, 27⟩ 200 a.region a.off := by
    rintro ⟨r, hr, x, hx, hxa⟩
    have e : certName.elements.toList.take certName.elementCount.toNat =
      [⟨some OID_COMMON_NAME, ⟨2, some (inCert 0)⟩⟩, ⟨some OID_SERIAL_NUMBER, ⟨2, some (inCert 2)⟩⟩] := rfl
    rw [e] at hr
    simp only [List.mem_cons, List.not_mem_nil, or_false] at hr
    rcases hr with rfl | rfl <;> cases hx <;> exact hs 2 _ (by decide) hxa
  rcases ha with ⟨t, ht, ha⟩ | ⟨x, hx, ha⟩
  · cases ht
    rcases ha with ⟨x, hx, ha⟩ | ha | ha | ha | ⟨x, hx, ha⟩ | ⟨l, hl, e, he, c, hc, ha⟩
    · cases hx; exact hs 2 4 (by decide) ha
    · exact hname ha
    · rcases ha with ⟨x, hx, ha⟩ | ⟨x, hx, ha⟩
      · cases hx
      · cases hx; exact hs 15 6 (by decide) ha
    · exact hname ha
    · cases hx; exact hs 2 21 (by decide) ha
    · cases hl
      cases he with
      | tail _ he => cases he
      | head =>
        cases hc
        obtain ⟨d, hd, ha⟩ := ha
        cases hd with
        | tail _ hd => cases hd
        | head => exact ha.elim
  · cases hx; exact hs 4 23 (by decide) ha

/-- The certificate is rendered: 180 octets at the end of the buffer. -/
example : ((x509CertP ⟨[], [], false⟩ (some (certOfMemory.map (Content.prog 1))) (some (streamInitP (some ⟨.caller 0, 27⟩) 200))).run certMemory).toOption.bind
      (fun r => r.1.2.map fun v => (v.writePosition, (r.2 (.caller 0)).take 50 |>.drop 44)) = some (180, [9, 9, 9, 0x30, 0x81, 0xb1]) := by decide +kernel

/-- A buffer of eight octets. -/
def eight : Memory := fun r => if r = .caller 0 then [1, 2, 3, 4, 5, 6, 7, 8] else []

/-- Non-vacuity of `C75_memory`: what has been rendered already may be rendered again from the same buffer.  The stream has two octets, 07 08; prepending an octet string with
them gives 04 02 07 08 07 08. -/
example : (Content.prog 1 [.octetstring (some ⟨2, some (.mem ⟨.caller 0, 6⟩)⟩) tagInfoNoOverride] (some ⟨some ⟨.caller 0, 0⟩, 8, 2, false, false⟩)).run eight =
      .ok (((), some ⟨some ⟨.caller 0, 0⟩, 8, 6, false, false⟩), eight.write ⟨.caller 0, 2⟩ [4, 2, 7, 8]) :=
  C75_memory 1 [.octetstring (some ⟨2, some (.mem ⟨.caller 0, 6⟩)⟩) tagInfoNoOverride] eight ⟨some ⟨.caller 0, 0⟩, 8, 2, false, false⟩
    ⟨fun h => (by cases h), fun _ => ⟨_, rfl, by decide, by decide⟩⟩
    (by
      rintro a ⟨d, hd, ha⟩ ⟨s, b, e1, e2, e3, e4, e5, e6⟩
      cases e1
      cases e2
      cases hd with
      | tail _ hd => cases hd
      | head =>
        obtain ⟨x, hx, y, hy, ha⟩ := ha
        cases hx
        cases hy
        obtain ⟨h1, h2, h3⟩ := ha
        simp only [UInt64.reduceToNat] at h2 h3 e6
        omega)
    [4, 2, 7, 8] (prepends_single _ _ ((prepends_octetString (some ⟨2, some ⟨[], [7, 8]⟩⟩) tagInfoNoOverride fun s hs => (by cases hs; exact slice_valid_of_le _ _ _ (by decide))).congr (by decide +kernel))) ⟨.caller 0, 0⟩ rfl rfl (by decide)

/-! ### The condition is needed -/

/-- **C75** (overlap).  Octets that overlap with the place where they are to be put cannot be rendered: this is undefined behaviour. -/
theorem C75_overlap_undefined (m : Memory) (v : SVars) (b a : Addr) (len : UInt64) (hb : v.begin_ = some b) (hgood : v.bufferOverflow = false) (hw : v.writePositionOverflow = false)
    (hfit : v.writePosition.toNat + len.toNat ≤ v.size.toNat) (hlap : (b.plus (v.size.toNat - v.writePosition.toNat - len.toNat)).Overlaps a len.toNat) :
    (streamPrependP (some (.mem a)) len (some v)).run m = .error .overlap := by
  have hlt := v.size.toNat_lt
  have e1 : (v.writePosition + len).toNat = v.writePosition.toNat + len.toNat := by rw [UInt64.toNat_add, Nat.mod_eq_of_lt (by omega)]
  have e2 : ¬ v.writePosition + len < v.writePosition := by rw [UInt64.lt_iff_toNat_lt]; omega
  have e3 : ¬ v.size < v.writePosition + len := by rw [UInt64.lt_iff_toNat_lt]; omega
  have e4 : (v.size - (v.writePosition + len)).toNat = v.size.toNat - v.writePosition.toNat - len.toNat := by
    rw [UInt64.toNat_sub_of_le _ _ (UInt64.le_iff_toNat_le.2 (by omega))]; omega
  simp only [streamPrependP, hb, hgood, hw, e2, e3, decide_false, Bool.or_false, Bool.false_eq_true, if_false, memcpyP, e4, hlap, if_true]
  rfl

/-- Non-vacuity: in a new stream for eight octets, the last three octets of the buffer and two octets before the end. -/
example : (streamPrependP (some (.mem ⟨.caller 0, 5⟩)) 2 (some (streamInitP (some ⟨.caller 0, 0⟩) 8))).run eight = .error .overlap :=
  C75_overlap_undefined eight (streamInitP (some ⟨.caller 0, 0⟩) 8) ⟨.caller 0, 0⟩ ⟨.caller 0, 5⟩ 2 rfl rfl rfl (by decide) (by decide)

/-- Without undefined behaviour the result can be wrong: an integer in little-endian order that lies where it is to be rendered, 07 08, becomes 02 02 07 07 instead of 02 02 08 07. -/
example : ((Content.prog 1 [.integer ⟨2, some (.mem ⟨.caller 0, 6⟩)⟩ true false tagInfoNoOverride] (some (streamInitP (some ⟨.caller 0, 0⟩) 8))).run eight).toOption.map
      (fun r => (r.1.2, r.2 (.caller 0))) = some (some ⟨some ⟨.caller 0, 0⟩, 8, 4, false, false⟩, [1, 2, 3, 4, 2, 2, 7, 7]) ∧
    (Content.value eight 1 [.integer ⟨2, some (.mem ⟨.caller 0, 6⟩)⟩ true false tagInfoNoOverride] (some (streamInit (some (List.replicate 8 0)) 8))).toOption.map
      (fun r => r.2.bind callerReads) = some (some [2, 2, 8, 7]) := by
  decide +kernel

/-! ## C76 -/

/-- What a thread may read: its inputs, its output and, in functions of the context, local arrays. -/
def Job.MayRead : Job → Addr → Prop
  | .call c => c.MayRead
  | .render n cs _ => Content.MayRead n cs

/-- What a thread may write: its output and, in functions of the context, local arrays. -/
def Job.MayWrite : Job → Addr → Prop
  | .call c => c.MayWrite
  | .render _ _ v => Unwritten v

theorem job_within (j : Job) : j.prog.Within j.MayRead j.MayWrite Region.Local fun _ => True := by
  cases j with
  | call c =>
    exact Prog.Within.seq (Q := fun _ => True) ((C73_footprint c).mono (fun _ h => h) (fun _ h => h) (fun _ h => h.1) fun _ h => h) fun _ _ => .done _ trivial
  | render n cs v =>
    exact Prog.Within.seq (Q := fun _ => True) ((C75_footprint n cs v).mono (fun _ h => h) (fun _ h => h) (fun _ h => h.elim) fun _ h => h) fun _ _ => .done _ trivial

theorem job_run (j : Job) (hj : j.OfCaller) (m : Memory) (hm : m.AtRest) (x : Outcome × Memory) (h : j.alone m = .ok x) : j.prog.run m = .ok x := by
  cases j with
  | call c =>
    simp only [Job.alone] at h
    cases he : c.effect m with
    | error u => rw [he] at h; cases h
    | ok y =>
      rw [he] at h
      have h : (Except.ok (.inl ⟨y.err, y.size⟩, y.mem) : Except UB (Outcome × Memory)) = .ok x := h
      cases h
      exact run_bind (C73_alone c hj m hm y he)
  | render n cs v =>
    simp only [Job.alone] at h
    cases he : (Content.prog n cs v).run m with
    | error u => rw [he] at h; cases h
    | ok y =>
      rw [he] at h
      have h : (Except.ok (.inr y.1.2, y.2) : Except UB (Outcome × Memory)) = .ok x := h
      cases h
      exact run_bind he

section
variable {ι : Type} [DecidableEq ι]

theorem job_writes {j : Job} {a : Addr} (ha : a.Shared) (h : j.MayWrite a) : j.Writes a := by
  cases j with
  | call c =>
    refine h.elim id fun h => ?_
    obtain ⟨n, hn⟩ := ha
    exact absurd hn (h.1 n)
  | render n cs v => exact h

theorem job_reads {j : Job} {a : Addr} (ha : a.Shared) (h : j.MayRead a) : j.Reads a ∨ j.Writes a := by
  cases j with
  | call c =>
    refine h.elim .inl fun h => h.elim .inr fun h => ?_
    obtain ⟨n, hn⟩ := ha
    exact absurd hn (h.1 n)
  | render n cs v => exact .inl h

/-- **C76** (threads).  Any number of threads call functions of the context or render into streams at the same time, where no thread writes what another one reads or
writes.  Then under every schedule no thread runs into undefined behaviour; and once thread `i` has made enough steps, however they are interleaved with those of the others,
it has the same result as when it runs alone on the memory of the start, its output is the same, its stack is the same, and memory that no thread may write is unchanged. -/
theorem C76_any_schedule (job : ι → Job) (hc : ∀ i, (job i).OfCaller) (hind : Job.Independent job) (shared : Nat → Bytes) (stack : ι → Memory)
    (hrest : ∀ i, (stack i).AtRest) (x : ι → Outcome × Memory) (hx : ∀ i, (job i).alone (viewOf shared (stack i)) = .ok (x i)) :
    (∀ σ i u, (((Job.start job shared stack).exec σ).thread i).prog ≠ .crash u) ∧
    (∀ i, ∃ N, ∀ σ : List ι, N ≤ σ.count i →
      (((Job.start job shared stack).exec σ).thread i).prog = .done (x i).1 ∧
      (∀ n k, (job i).Writes ⟨.caller n, k⟩ → (((Job.start job shared stack).exec σ).shared n)[k]? = ((x i).2 (.caller n))[k]?) ∧
      (∀ r : Region, r.Local → (((Job.start job shared stack).exec σ).thread i).stack r = (x i).2 r)) ∧
    (∀ σ n k, (∀ i, ¬ (job i).Writes ⟨.caller n, k⟩) → (((Job.start job shared stack).exec σ).shared n)[k]? = (shared n)[k]?) := by
  have hmem : ∀ i, (viewOf shared (stack i)).AtRest := fun i r hr hs => by
    have : viewOf shared (stack i) r = stack i r := by
      cases r with
      | caller n => exact absurd rfl (hr n)
      | _ => rfl
    rw [this]
    exact hrest i r hr hs
  have hrun := fun i => job_run (job i) (hc i) _ (hmem i) (x i) (hx i)
  have hwith : ∀ i, ∃ Q, ((Job.start job shared stack).thread i).prog.Within (job i).MayRead (job i).MayWrite Region.Local Q := fun i => ⟨_, job_within (job i)⟩
  have hexec := fun σ => exec_solo (fun i => (job i).MayRead) (fun i => (job i).MayWrite) σ (Job.start job shared stack) (fun i => viewOf shared (stack i)) hwith
    (fun i j hij a ha hw => by
      obtain ⟨h1, h2⟩ := hind i j hij a (job_writes ha hw)
      exact ⟨fun h => (job_reads ha h).elim h1 h2, fun h => h2 (job_writes ha h)⟩)
    (fun i => ⟨fun _ _ => rfl, fun _ _ _ => rfl⟩)
  refine ⟨fun σ i u => ?_, fun i => ?_, fun σ n k hn => ?_⟩
  · rw [(hexec σ i).1]
    exact steps_safe _ _ _ _ (hrun i) _ u
  · obtain ⟨N, hN⟩ := run_steps _ _ _ _ (hrun i)
    refine ⟨N, fun σ hσ => ?_⟩
    obtain ⟨h1, h2⟩ := hexec σ i
    rw [show ((Job.start job shared stack).thread i).prog = (job i).prog from rfl, hN _ hσ] at h1 h2
    refine ⟨h1, fun n k hw => ?_, fun r hr => ?_⟩
    · refine h2.used ⟨.caller n, k⟩ ⟨n, rfl⟩ (.inr ?_)
      show (job i).MayWrite _
      cases hj : job i with
      | call c => rw [hj] at hw; exact .inl hw
      | render m cs v => rw [hj] at hw; exact hw
    · rw [← view_local _ _ _ hr]
      exact h2.own r hr
  · by_cases hι : Nonempty ι
    · obtain ⟨i⟩ := hι
      exact exec_frame (fun i => (job i).MayRead) (fun i => (job i).MayWrite) σ ⟨.caller n, k⟩ ⟨n, rfl⟩ (fun i h => hn i (job_writes ⟨n, rfl⟩ h)) (Job.start job shared stack) hwith i
    · cases σ with
      | nil => rfl
      | cons i _ => exact absurd ⟨i⟩ hι

/-- What a thread does that renders into a buffer of its own. -/
structure RenderJob where
  n : Nat
  cs : Content n
  obj : Nat
  off : Nat
  size : UInt64

def RenderJob.job (r : RenderJob) : Job := .render r.n r.cs (some (streamInitP (some ⟨.caller r.obj, r.off⟩) r.size))

/-- The buffer exists, nothing that is rendered is in it, and the calls, made for copies of their arguments, prepend `bs`, which fits. -/
structure RenderJob.Renders (r : RenderJob) (m : Memory) (bs : Bytes) : Prop where
  room : r.off + r.size.toNat ≤ (m (.caller r.obj)).length
  avoids : ∀ a, Content.Reads r.n r.cs a → ¬ Addr.Covers ⟨.caller r.obj, r.off⟩ r.size.toNat a.region a.off
  prepends : Prepends (Content.value m r.n r.cs) bs
  fits : bs.length ≤ r.size.toNat

/-- **C76** (rendering).  Threads that render at the same time, each into its own buffer, all get what they get alone, at the end of their buffers, under every schedule. -/
theorem C76_render (r : ι → RenderJob) (hind : Job.Independent fun i => (r i).job) (shared : Nat → Bytes) (stack : ι → Memory) (hrest : ∀ i, (stack i).AtRest) (bs : ι → Bytes)
    (hr : ∀ i, (r i).Renders (viewOf shared (stack i)) (bs i)) (i : ι) :
    ∃ N, ∀ σ : List ι, N ≤ σ.count i →
      (((Job.start (fun i => (r i).job) shared stack).exec σ).thread i).prog =
        .done (.inr (some ⟨some ⟨.caller (r i).obj, (r i).off⟩, (r i).size, UInt64.ofNat (bs i).length, false, false⟩)) ∧
      ((((Job.start (fun i => (r i).job) shared stack).exec σ).shared (r i).obj).drop ((r i).off + (r i).size.toNat - (bs i).length)).take (bs i).length = bs i := by
  have halone : ∀ i, (r i).job.alone (viewOf shared (stack i)) =
      .ok (.inr (some ⟨some ⟨.caller (r i).obj, (r i).off⟩, (r i).size, UInt64.ofNat (bs i).length, false, false⟩),
        (viewOf shared (stack i)).write (Addr.plus ⟨.caller (r i).obj, (r i).off⟩ ((r i).size.toNat - (bs i).length)) (bs i)) := fun i => by
    simp only [RenderJob.job, Job.alone]
    rw [C75_new_stream _ _ _ _ _ (hr i).room (hr i).avoids _ (hr i).prepends (hr i).fits]
    rfl
  obtain ⟨-, h2, -⟩ := C76_any_schedule (fun i => (r i).job) (fun i s hs => by cases hs; exact fun a ha => ⟨(r i).obj, by cases ha; rfl⟩) hind shared stack hrest _ halone
  obtain ⟨N, hN⟩ := h2 i
  refine ⟨N, fun σ hσ => ⟨(hN σ hσ).1, List.ext_getElem? fun k => ?_⟩⟩
  have hf := (hr i).fits
  have hroom : (r i).off + (r i).size.toNat ≤ (shared (r i).obj).length := (hr i).room
  rw [List.getElem?_take]
  split
  · next hk =>
    rw [List.getElem?_drop, (hN σ hσ).2.1 (r i).obj ((r i).off + (r i).size.toNat - (bs i).length + k) ((unwritten_init _ _ _).2 ⟨rfl, by simp only; omega, by simp only; omega⟩)]
    simp only [Memory.write, Addr.plus, if_true]
    rw [show viewOf shared (stack i) (.caller (r i).obj) = shared (r i).obj from rfl]
    have hl : (List.take ((r i).off + ((r i).size.toNat - (bs i).length)) (shared (r i).obj)).length = (r i).off + ((r i).size.toNat - (bs i).length) := by rw [List.length_take]; omega
    rw [List.append_assoc, List.getElem?_append_right (by omega), hl, List.getElem?_append_left (by omega)]
    congr 1
    omega
  · next hk => rw [List.getElem?_eq_none (by omega)]

end

/-- The objects of three threads: a buffer and an input for rendering each, and a buffer for a digest; the input is used by all. -/
def threeObjects : Nat → Bytes := fun n => if n = 0 then List.replicate 6 9 else if n = 1 then List.replicate 6 9 else if n = 2 then List.replicate 32 9 else if n = 3 then [0x61, 0x62, 0x63] else []

/-- Two threads that render the input, and one that computes its digest. -/
def threeJobs : Fin 3 → Job
  | 0 => .render 1 [.octetstring (some ⟨3, some (.mem ⟨.caller 3, 0⟩)⟩) tagInfoNoOverride] (some (streamInitP (some ⟨.caller 0, 0⟩) 6))
  | 1 => .render 1 [.cborTextString ⟨3, some (.mem ⟨.caller 3, 0⟩)⟩] (some (streamInitP (some ⟨.caller 1, 0⟩) 6))
  | 2 => .call (.digest 1 (some [⟨1, some [⟨3, some ⟨.caller 3, 0⟩⟩]⟩]) 1 (some ⟨.caller 2, 0⟩) (some 32))

/-- Non-vacuity of `C76_any_schedule`: the three threads do not disturb each other. -/
example : Job.Independent threeJobs ∧ ∀ i, (threeJobs i).OfCaller := by
  have hw : ∀ i a, (threeJobs i).Writes a → a.region = .caller i.val := by
    intro i a h
    match i, h with
    | 0, h => exact ((unwritten_init _ _ _).1 h).1
    | 1, h => exact ((unwritten_init _ _ _).1 h).1
    | 2, ⟨o, ho, h1, _⟩ => cases ho; exact h1
  have hr : ∀ i a, (threeJobs i).Reads a → a.region = .caller 3 := by
    intro i a h
    match i, h with
    | 0, ⟨d, hd, h⟩ =>
      cases hd with
      | tail _ hd => cases hd
      | head => obtain ⟨x, hx, y, hy, h⟩ := h; cases hx; cases hy; exact h.1
    | 1, ⟨d, hd, h⟩ =>
      cases hd with
      | tail _ hd => cases hd
      | head => obtain ⟨y, hy, h⟩ := h; cases hy; exact h.1
    | 2, ⟨g, hg, s, hs, x, hx, h⟩ =>
      cases hg with
      | tail _ hg => cases hg
      | head =>
        cases hs with
        | tail _ hs => cases hs
        | head => cases hx; exact h.1
  refine ⟨fun i j hij a ha => ⟨fun h => ?_, fun h => ?_⟩, fun i => ?_⟩
  · have h1 := hw i a ha
    rw [hr j a h] at h1
    simp only [Region.caller.injEq] at h1
    omega
  · have h1 := hw i a ha
    rw [hw j a h] at h1
    simp only [Region.caller.injEq] at h1
    exact hij (Fin.ext h1.symm)
  · match i with
    | 0 => intro s hs; cases hs; intro a ha; cases ha; exact ⟨0, rfl⟩
    | 1 => intro s hs; cases hs; intro a ha; cases ha; exact ⟨1, rfl⟩
    | 2 =>
      refine ⟨fun g hg => ?_, fun a ha => ⟨2, by cases ha; rfl⟩⟩
      cases hg with
      | tail _ hg => cases hg
      | head =>
        intro s hs
        cases hs with
        | tail _ hs => cases hs
        | head => intro a ha; cases ha; exact ⟨3, rfl⟩

/-- Two of the threads, whose steps alternate: each renders what it renders alone. -/
example : (((Job.start threeJobs threeObjects fun _ _ => []).exec ((List.replicate 40 [0, 1]).flatten)).shared 0, ((Job.start threeJobs threeObjects fun _ _ => []).exec ((List.replicate 40 [0, 1]).flatten)).shared 1)
    = ([9, 4, 3, 0x61, 0x62, 0x63], [9, 9, 0x63, 0x61, 0x62, 0x63]) := by decide +kernel

/-- The condition is needed: if two threads render into the same buffer, the result depends on the schedule. -/
example :
    let race : Fin 2 → Job := fun i => .render 1 [.octetstring (some ⟨3, some (.mem ⟨.caller 3, 0⟩)⟩) (if i = 0 then tagInfoNoOverride else tagInfoImplicit 1)] (some (streamInitP (some ⟨.caller 0, 0⟩) 6))
    ((Job.start race threeObjects fun _ _ => []).exec (List.replicate 40 0 ++ List.replicate 40 1)).shared 0 ≠ ((Job.start race threeObjects fun _ _ => []).exec (List.replicate 40 1 ++ List.replicate 40 0)).shared 0 := by
  decide +kernel

end Nat20

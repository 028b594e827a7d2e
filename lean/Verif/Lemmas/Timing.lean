import Verif.Lemmas.Footprint
/-!
# Lemmas: what is seen of an execution does not depend on the contents of memory

For every program of `Model/Steps`: two executions with different octets have the same shape (`Prog.Alike`), and states of the hash
that are in the same position stay so.
-/

namespace Nat20

section
variable {w : Nat} (P : ShaCode w)

/-- The two states have taken in the same number of octets. -/
structure ShaState.Level (s s' : ShaState w) : Prop where
  fill : s.fill = s'.fill
  total : s.total = s'.total

theorem alike_round (j : Nat) (t t' : BitVec w) (R R' : Vector (BitVec w) 8) : Prog.Alike (fun _ _ => True) (shaRoundP P j t R) (shaRoundP P j t' R') :=
  (alike_touch _).seq fun _ _ _ => .done _ _ trivial

theorem alike_rounds16 (W W' : Vector (BitVec w) 16) (R R' : Vector (BitVec w) 8) (n : Nat) :
    Prog.Alike (fun _ _ => True) (shaRounds16P P W R n) (shaRounds16P P W' R' n) := by
  induction n with
  | zero => exact .done _ _ trivial
  | succ n ih =>
    rw [shaRounds16P, shaRounds16P]
    exact ih.seq fun x y _ => alike_branch _ _ Iff.rfl (fun _ => (alike_touch _).seq fun _ _ _ => alike_round P _ _ _ _ _) fun _ => .done _ _ trivial

theorem alike_roundsExt (s s' : Vector (BitVec w) 16 × MainVars w) (n : Nat) :
    Prog.Alike (fun _ _ => True) (shaRoundsExtP P s n) (shaRoundsExtP P s' n) := by
  induction n with
  | zero => exact .done _ _ trivial
  | succ n ih =>
    rw [shaRoundsExtP, shaRoundsExtP]
    exact ih.seq fun x y _ => alike_branch _ _ Iff.rfl
      (fun _ => (alike_touch _).seq fun _ _ _ => (alike_round P _ _ _ _ _).seq fun _ _ _ => .done _ _ trivial) fun _ => .done _ _ trivial

theorem alike_main (s s' : ShaState w) (h : s.Level s') : Prog.Alike ShaState.Level (shaMainP P s) (shaMainP P s') :=
  (alike_touch _).seq fun _ _ _ => (alike_rounds16 P _ _ _ _ _).seq fun _ _ _ => (alike_roundsExt P _ _ _).seq fun _ _ _ =>
    (alike_touch _).seq fun _ _ _ => (alike_touch _).seq fun _ _ _ => .leave _ _ _ _ (.done _ _ ⟨rfl, h.total⟩)

theorem alike_shiftIn (s s' : ShaState w) (h : s.Level s') (j : Nat) (b b' : UInt8) : Prog.Alike ShaState.Level (shaShiftInP P s j b) (shaShiftInP P s' j b') := by
  refine (alike_touch _).seq fun _ _ _ => ?_
  split
  · exact .done _ _ ⟨h.fill, h.total⟩
  · exact .crash _

theorem alike_fill (n : Nat) : ∀ (s s' : ShaState w) (_ : s.Level s') (j : Nat) (a : Addr),
    Prog.Alike (fun x y => x.1.Level y.1 ∧ x.2 = y.2) (shaFillP P s j a n) (shaFillP P s' j a n) := by
  induction n with
  | zero => intro s s' h j a; exact alike_branch _ _ Iff.rfl (fun _ => .done _ _ ⟨h, rfl⟩) fun _ => .done _ _ ⟨h, rfl⟩
  | succ n ih =>
    intro s s' h j a
    rw [shaFillP, shaFillP]
    exact alike_branch _ _ Iff.rfl (fun _ => .load _ _ _ fun b b' => (alike_shiftIn P s s' h j b b').seq fun x y hx => ih x y hx _ _) fun _ => .done _ _ ⟨h, rfl⟩

theorem alike_updateLoop (fuel : Nat) : ∀ (s s' : ShaState w) (_ : s.Level s') (a : Addr) (n : Nat),
    Prog.Alike ShaState.Level (shaUpdateLoopP P fuel s a n) (shaUpdateLoopP P fuel s' a n) := by
  induction fuel with
  | zero => intro s s' h a n; exact .done _ _ h
  | succ fuel ih =>
    intro s s' h a n
    rw [shaUpdateLoopP, shaUpdateLoopP]
    refine alike_branch _ _ Iff.rfl (fun _ => ?_) fun _ => .done _ _ h
    rw [h.fill]
    refine (alike_fill P n s s' h _ a).seq fun x y hx => ?_
    rw [hx.2]
    exact alike_branch _ _ Iff.rfl (fun _ => .done _ _ ⟨rfl, hx.1.total⟩) fun _ => (alike_main P x.1 y.1 hx.1).seq fun u v hu => ih u v hu _ _

theorem alike_update (s s' : ShaState w) (h : s.Level s') (data : MSlice) : Prog.Alike ShaState.Level (shaUpdateP P s data) (shaUpdateP P s' data) := by
  refine .note _ _ _ ?_
  split
  · exact .done _ _ h
  · exact alike_updateLoop P _ { s with total := s.total + data.size } { s' with total := s'.total + data.size } ⟨h.fill, congrArg (· + data.size) h.total⟩ _ _

theorem alike_shiftLoop (f f' : Nat → UInt8) (n : Nat) : ∀ (i : Nat) (s s' : ShaState w) (_ : s.Level s'),
    Prog.Alike ShaState.Level (shaShiftLoopP P f n i s) (shaShiftLoopP P f' n i s') := by
  induction n with
  | zero => intro i s s' h; exact .note _ _ _ (.done _ _ h)
  | succ n ih => intro i s s' h; exact .note _ _ _ ((alike_shiftIn P s s' h i _ _).seq fun x y hx => ih _ x y hx)

theorem alike_finishBlock (s s' : ShaState w) (h : s.Level s') (i : Nat) :
    Prog.Alike (fun x y => x.1.Level y.1 ∧ x.2 = y.2) (shaFinishBlockP P s i) (shaFinishBlockP P s' i) :=
  alike_branch _ _ Iff.rfl
    (fun _ => (alike_shiftLoop P _ _ _ _ s s' h).seq fun x y hx => (alike_main P x y hx).seq fun _ _ hu => .done _ _ ⟨hu, rfl⟩) fun _ => .done _ _ ⟨h, rfl⟩

theorem alike_output (H H' : Vector (BitVec w) 8) (out : Addr) (n : Nat) : ∀ i, Prog.Alike (fun _ _ => True) (shaOutputP P H out n i) (shaOutputP P H' out n i) := by
  induction n with
  | zero => intro i; exact .note _ _ _ (.done _ _ trivial)
  | succ n ih => intro i; exact .note _ _ _ (.note _ _ _ (.store _ _ _ _ _ (ih _)))

theorem alike_finalize (s s' : ShaState w) (h : s.Level s') (out : Option Addr) (size : Nat) :
    Prog.Alike (fun _ _ => True) (shaFinalizeP P s out size) (shaFinalizeP P s' out size) := by
  unfold shaFinalizeP
  rw [h.fill]
  refine (alike_shiftIn P s s' h _ _ _).seq fun x y hx => (alike_finishBlock P x y hx _).seq fun u v hu => ?_
  rw [hu.2]
  refine (alike_shiftLoop P _ _ _ _ _ _ hu.1).seq fun x y hx => (alike_shiftLoop P _ _ _ _ _ _ hx).seq fun x y hx => (alike_main P x y hx).seq fun x y _ => ?_
  split
  · exact .crash _
  · exact (alike_output P _ _ _ _ _).seq fun _ _ _ => .done _ _ trivial

end

/-- Both hashes of the union of states are in the same position. -/
structure DigestState.Level (s s' : DigestState) : Prop where
  sha256 : s.sha256.Level s'.sha256
  sha512 : s.sha512.Level s'.sha512

theorem DigestState.Level.refl (s : DigestState) : s.Level s := ⟨⟨rfl, rfl⟩, ⟨rfl, rfl⟩⟩

theorem alike_digestUpdate (alg : UInt32) (st st' : DigestState) (h : st.Level st') (s : MSlice) :
    Prog.Alike DigestState.Level (digestUpdateP alg st s) (digestUpdateP alg st' s) :=
  alike_branch _ _ Iff.rfl (fun _ => (alike_update sha256Code _ _ h.sha256 s).seq fun _ _ hx => .done _ _ ⟨hx, h.sha512⟩)
    fun _ => (alike_update sha512Code _ _ h.sha512 s).seq fun _ _ hx => .done _ _ ⟨h.sha256, hx⟩

theorem alike_digestList (alg : UInt32) (n : Nat) : ∀ (l : List MSlice) (st st' : DigestState) (_ : st.Level st'),
    Prog.Alike (fun x y => x.1 = y.1 ∧ x.2.Level y.2) (digestListP alg n l st) (digestListP alg n l st') := by
  induction n with
  | zero => intro l st st' h; rw [digestListP, digestListP]; exact .note _ _ _ (.done _ _ ⟨rfl, h⟩)
  | succ n ih =>
    intro l st st' h
    cases l with
    | nil => exact .crash _
    | cons s rest =>
      exact .note _ _ _ (alike_branch _ _ Iff.rfl (fun _ => ih rest st st' h) fun _ => alike_branch _ _ Iff.rfl (fun _ => .done _ _ ⟨rfl, h⟩) fun _ =>
        (alike_digestUpdate alg st st' h s).seq fun x y hx => ih rest x y hx)

theorem alike_digestGather (alg : UInt32) (g : MList) (st st' : DigestState) (h : st.Level st') :
    Prog.Alike (fun x y => x.1 = y.1 ∧ x.2.Level y.2) (digestGatherP alg g st) (digestGatherP alg g st') := by
  unfold digestGatherP
  split
  · exact alike_branch _ _ Iff.rfl (fun _ => .done _ _ ⟨rfl, h⟩) fun _ => .crash _
  · exact alike_digestList alg _ _ st st' h

theorem alike_digestLists (alg : UInt32) (n : Nat) : ∀ (l : List MList) (st st' : DigestState) (_ : st.Level st'),
    Prog.Alike (fun x y => x.1 = y.1 ∧ x.2.Level y.2) (digestListsP alg n l st) (digestListsP alg n l st') := by
  induction n with
  | zero => intro l st st' h; rw [digestListsP, digestListsP]; exact .note _ _ _ (.done _ _ ⟨rfl, h⟩)
  | succ n ih =>
    intro l st st' h
    cases l with
    | nil => exact .crash _
    | cons g rest =>
      exact .note _ _ _ ((alike_digestGather alg g st st' h).seq fun x y hx => alike_branch _ _ (by rw [hx.1]) (fun _ => ih rest _ _ hx.2) fun _ => .done _ _ hx)

theorem alike_digestFinalize (alg : UInt32) (st st' : DigestState) (h : st.Level st') (out : Option Addr) :
    Prog.Alike (fun _ _ => True) (digestFinalizeP alg st out) (digestFinalizeP alg st' out) :=
  alike_branch _ _ Iff.rfl (fun _ => h256 _) fun _ => alike_branch _ _ Iff.rfl (fun _ => h256 _) fun _ => alike_branch _ _ Iff.rfl (fun _ => h512 _) fun _ => h512 _
where
  h256 (n : Nat) : Prog.Alike (fun _ _ => True) (digestFinalizeP.finalize256 st out n) (digestFinalizeP.finalize256 st' out n) :=
    (alike_finalize _ _ _ h.sha256 _ _).seq fun _ _ _ => .done _ _ trivial
  h512 (n : Nat) : Prog.Alike (fun _ _ => True) (digestFinalizeP.finalize512 st out n) (digestFinalizeP.finalize512 st' out n) :=
    (alike_finalize _ _ _ h.sha512 _ _).seq fun _ _ _ => .done _ _ trivial

theorem alike_digestMessage (st st' : DigestState) (h : st.Level st') (alg : UInt32) (msg : Option (List MList)) (count : UInt64) (out : Option Addr) (size : UInt64) :
    Prog.Alike (fun x y => x.1 = y.1) (digestMessageP st alg msg count out size) (digestMessageP st' alg msg count out size) := by
  match msg with
  | none => exact .note _ _ _ (.done _ _ rfl)
  | some [] => exact .crash _
  | some (g :: gs) =>
    exact .note _ _ _ (alike_branch _ _ Iff.rfl (fun _ => .done _ _ rfl) fun _ => (alike_digestLists alg _ _ st st' h).seq fun x y hx =>
      alike_branch _ _ (by rw [hx.1]) (fun _ => (alike_digestFinalize alg _ _ hx.2 out).seq fun _ _ _ => .done _ _ rfl) fun _ => .done _ _ (by simp only; rw [hx.1]))

theorem alike_digest (alg : UInt32) (msg : Option (List MList)) (count : UInt64) (out : Option Addr) (size : Option UInt64) :
    Prog.Alike Eq (digestP alg msg count out size) (digestP alg msg count out size) := by
  refine Prog.Alike.seq (Q := fun x y => x.1 = y.1) ?_ fun x y h => .leave _ _ _ _ (.done _ _ h)
  refine .note _ _ _ ?_
  split
  · exact .done _ _ rfl
  · refine .note _ _ _ ?_
    split
    · exact .done _ _ rfl
    · exact alike_branch _ _ Iff.rfl (fun _ => .done _ _ rfl) fun _ => alike_digestMessage _ _ (.refl _) alg msg count out _

theorem alike_withSecret {α : Type} {Q : α → α → Prop} (r : Region) (n : Nat) (p p' : Prog α) (h : Prog.Alike Q p p') :
    Prog.Alike Q (withSecretP r n p) (withSecretP r n p') :=
  .alloc _ _ _ _ _ rfl (h.seq fun x y hx => .free _ _ _ _ (.done x y hx))

theorem alike_wipe (a : Addr) (n : Nat) : ∀ i, Prog.Alike Eq (wipeP a n i) (wipeP a n i) := by
  induction n with
  | zero => intro i; exact .done _ _ rfl
  | succ n ih => intro i; exact .store _ _ _ _ _ (ih _)

theorem alike_copy (a b : Addr) (n : Nat) : ∀ i, Prog.Alike Eq (copyP a b n i) (copyP a b n i) := by
  induction n with
  | zero => intro i; exact .done _ _ rfl
  | succ n ih => intro i; exact .load _ _ _ fun _ _ => .store _ _ _ _ _ (ih _)

theorem alike_xor (a : Addr) (x : UInt8) (n : Nat) : ∀ i, Prog.Alike Eq (xorP a x n i) (xorP a x n i) := by
  induction n with
  | zero => intro i; exact .note _ _ _ (.done _ _ rfl)
  | succ n ih => intro i; exact .note _ _ _ (.load _ _ _ fun _ _ => .store _ _ _ _ _ (ih _))

theorem alike_hmacKey (alg : UInt32) (key : MSlice) (block ds : UInt64) : Prog.Alike Eq (hmacKeyP alg key block ds) (hmacKeyP alg key block ds) := by
  refine alike_branch _ _ Iff.rfl (fun _ => (alike_digest _ _ _ _ _).seq fun x y hx => .done _ _ (by rw [hx])) fun _ => ?_
  split
  · exact .crash _
  · exact (alike_copy _ _ _ _).seq fun _ _ _ => .done _ _ rfl

theorem alike_hmacOuter (alg : UInt32) (block ds : UInt64) (out : Option Addr) (size : UInt64) :
    Prog.Alike Eq (hmacOuterP alg block ds out size) (hmacOuterP alg block ds out size) :=
  (alike_xor _ _ _ _).seq fun _ _ _ => alike_digest _ _ _ _ _

theorem alike_hmacMessage (alg : UInt32) (block ds : UInt64) (msg : Option MList) (out : Option Addr) (size : UInt64) :
    Prog.Alike Eq (hmacMessageP alg block ds msg out size) (hmacMessageP alg block ds msg out size) := by
  unfold hmacMessageP
  split
  · exact .note _ _ _ (.done _ _ rfl)
  · refine .note _ _ _ (alike_branch _ _ Iff.rfl (fun _ => .done _ _ rfl) fun _ => (alike_digest _ _ _ _ _).seq fun x y hx => ?_)
    subst hx
    exact alike_branch _ _ Iff.rfl (fun _ => alike_hmacOuter _ _ _ _ _) fun _ => .done _ _ rfl

theorem alike_hmacInternal (alg : UInt32) (key : MSlice) (msg : Option MList) (out : Option Addr) (size : Option UInt64) :
    Prog.Alike Eq (hmacInternalP alg key msg out size) (hmacInternalP alg key msg out size) := by
  refine alike_branch _ _ Iff.rfl (fun _ => .done _ _ rfl) fun _ => .note _ _ _ ?_
  split
  · exact .done _ _ rfl
  · refine alike_branch _ _ Iff.rfl (fun _ => .done _ _ rfl) fun _ => alike_branch _ _ Iff.rfl (fun _ => .done _ _ rfl) fun _ =>
      (alike_hmacKey _ _ _ _).seq fun x y hx => ?_
    subst hx
    exact alike_branch _ _ Iff.rfl (fun _ => (alike_xor _ _ _ _).seq fun _ _ _ => alike_hmacMessage _ _ _ _ _ _) fun _ => .done _ _ rfl

theorem alike_hmac (alg : UInt32) (key : MSlice) (msg : Option MList) (out : Option Addr) (size : Option UInt64) :
    Prog.Alike Eq (hmacP alg key msg out size) (hmacP alg key msg out size) :=
  alike_withSecret _ _ _ _ (alike_withSecret _ _ _ _ ((alike_hmacInternal alg key msg out size).seq fun x y hx => (alike_wipe _ _ _).seq fun _ _ _ =>
    (alike_wipe _ _ _).seq fun _ _ _ => .done _ _ hx))

theorem alike_extract (alg : UInt32) (ikm salt : MSlice) (prk : Option Addr) (size : Option UInt64) :
    Prog.Alike Eq (extractP alg ikm salt prk size) (extractP alg ikm salt prk size) := by
  refine alike_branch _ _ Iff.rfl (fun _ => .done _ _ rfl) fun _ => alike_branch _ _ Iff.rfl (fun _ => .done _ _ rfl) fun _ =>
    alike_branch _ _ Iff.rfl (fun _ => .done _ _ rfl) fun _ => .note _ _ _ ?_
  split
  · exact .done _ _ rfl
  · exact alike_branch _ _ Iff.rfl (fun _ => .done _ _ rfl) fun _ => alike_hmac _ _ _ _ _

theorem alike_expandStep (alg : UInt32) (prk info : MSlice) (s : ExpandVars) : Prog.Alike Eq (expandStepP alg prk info s) (expandStepP alg prk info s) :=
  (alike_hmac _ _ _ _ _).seq fun x y hx => .load _ _ _ fun _ _ => .store _ _ _ _ _ (.done _ _ (by rw [hx]))

theorem alike_expandLoop (alg : UInt32) (prk info : MSlice) (fuel : Nat) : ∀ s, Prog.Alike Eq (expandLoopP alg prk info fuel s) (expandLoopP alg prk info fuel s) := by
  induction fuel with
  | zero => intro s; exact .crash _
  | succ fuel ih =>
    intro s
    rw [expandLoopP]
    exact alike_branch _ _ Iff.rfl (fun _ => (alike_expandStep alg prk info s).seq fun x y hx => hx ▸ ih x) fun _ => .done _ _ rfl

theorem alike_expandLast (alg : UInt32) (prk info prev : MSlice) (ds n : UInt64) (out : Addr) :
    Prog.Alike Eq (expandLastP alg prk info prev ds n out) (expandLastP alg prk info prev ds n out) :=
  (alike_hmac _ _ _ _ _).seq fun x y hx => alike_branch _ _ (by rw [hx])
    (fun _ => (alike_copy _ _ _ _).seq fun _ _ _ => (alike_wipe _ _ _).seq fun _ _ _ => .done _ _ rfl) fun _ => (alike_wipe _ _ _).seq fun _ _ _ => .done _ _ (by rw [hx])

theorem alike_expand (alg : UInt32) (prk info : MSlice) (n : UInt64) (out : Option Addr) : Prog.Alike Eq (hkdfExpandP alg prk info n out) (hkdfExpandP alg prk info n out) := by
  refine alike_branch _ _ Iff.rfl (fun _ => .done _ _ rfl) fun _ => alike_branch _ _ Iff.rfl (fun _ => .done _ _ rfl) fun _ =>
    alike_branch _ _ Iff.rfl (fun _ => .done _ _ rfl) fun _ => alike_branch _ _ Iff.rfl (fun _ => .done _ _ rfl) fun _ => .note _ _ _ ?_
  split
  · exact .done _ _ rfl
  · refine .alloc _ _ _ _ _ rfl (Prog.Alike.seq (Q := Eq) ?_ fun x y hx => .free _ _ _ _ (.done _ _ hx))
    refine (alike_expandLoop alg prk info _ _).seq fun x y hx => ?_
    subst hx
    exact alike_branch _ _ Iff.rfl (fun _ => alike_withSecret _ _ _ _ (alike_expandLast _ _ _ _ _ _ _)) fun _ => .done _ _ rfl

theorem alike_hkdf (alg : UInt32) (ikm salt info : MSlice) (n : UInt64) (out : Option Addr) :
    Prog.Alike Eq (hkdfP alg ikm salt info n out) (hkdfP alg ikm salt info n out) :=
  alike_branch _ _ Iff.rfl (fun _ => .done _ _ rfl) fun _ => alike_branch _ _ Iff.rfl (fun _ => .done _ _ rfl) fun _ =>
    alike_branch _ _ Iff.rfl (fun _ => .done _ _ rfl) fun _ => alike_branch _ _ Iff.rfl (fun _ => .done _ _ rfl) fun _ =>
    alike_withSecret _ _ _ _ ((alike_extract _ _ _ _ _).seq fun x y hx => alike_branch _ _ (by rw [hx])
      (fun _ => by rw [hx]; exact (alike_expand _ _ _ _ _).seq fun u v hu => (alike_wipe _ _ _).seq fun _ _ _ => .done _ _ (by rw [hu]))
      fun _ => (alike_wipe _ _ _).seq fun _ _ _ => .done _ _ (by rw [hx]))

end Nat20

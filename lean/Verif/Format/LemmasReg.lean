import Verif.Format.LemmasName

/-! # Lemmas about the registry of version 3 formats -/

namespace VS.Format
open VS

instance (c : Int) : Decidable (NamedFamily c) := by unfold NamedFamily; infer_instance
instance (c t b w h : Int) : Decidable (Documented3 c t b w h) := by unfold Documented3; infer_instance
instance (f : V3Fmt) (c t b w h : Int) : Decidable (Is f c t b w h) := by unfold Is; infer_instance

/-- The two formats are the same apart from name and identifier. -/
def SameTuple (f g : V3Fmt) : Prop :=
  Is f g.colorFamily g.sampleType g.bitsPerSample g.subSamplingW g.subSamplingH

instance (f g : V3Fmt) : Decidable (SameTuple f g) := by unfold SameTuple; infer_instance

theorem SameTuple.symm {f g : V3Fmt} (h : SameTuple f g) : SameTuple g f := by
  obtain ⟨a, b, c, d, e⟩ := h; exact ⟨a.symm, b.symm, c.symm, d.symm, e.symm⟩

/-- What is known of an entry. -/
def Entry (off : Int) (e : Int × V3Fmt) : Prop :=
  e.2.id = e.1 ∧
  ((Documented3 e.2.colorFamily e.2.sampleType e.2.bitsPerSample e.2.subSamplingW e.2.subSamplingH ∧
      e.2.name = v3Name none e.2.colorFamily e.2.sampleType e.2.bitsPerSample e.2.subSamplingW
        e.2.subSamplingH) ∨
    (e.2.colorFamily = cmCompat ∧ (e.1 = pfCompatBGR32 ∨ e.1 = pfCompatYUY2) ∧
      (e.2.sampleType = 0 ∧ 8 ≤ e.2.bitsPerSample ∧ e.2.bitsPerSample ≤ 32 ∧
        0 ≤ e.2.subSamplingW ∧ e.2.subSamplingW ≤ 4 ∧ 0 ≤ e.2.subSamplingH ∧ e.2.subSamplingH ≤ 4))) ∧
  e.2.bytesPerSample = bytesLoop 31 1 e.2.bitsPerSample ∧
  e.2.numPlanes = (if e.2.colorFamily = cmGray ∨ e.2.colorFamily = cmCompat then 1 else 3) ∧
  10 ≤ e.1 - e.2.colorFamily ∧ e.1 - e.2.colorFamily < off

instance (off : Int) (e : Int × V3Fmt) : Decidable (Entry off e) := by unfold Entry; infer_instance

/-- The invariant of the registry. -/
def Inv (r : Reg) : Prop :=
  r.formats.Pairwise (fun a b => a.1 ≠ b.1) ∧
  r.formats.Pairwise (fun a b => ¬ SameTuple a.2 b.2) ∧
  (∀ e ∈ r.formats, Entry r.offset e) ∧
  r.offset + 35 = 1000 + (r.formats.length : Int)

instance (r : Reg) : Decidable (Inv r) := by unfold Inv; infer_instance

theorem newReg_inv : ∃ r, newReg = .ok r ∧ Inv r := by
  have h : (match newReg with | .ok r => decide (Inv r) | _ => false) = true := by decide +kernel
  revert h
  cases newReg with
  | ok r => intro h; exact ⟨r, rfl, by simpa using h⟩
  | err _ => intro h; cases h
  | fatal _ => intro h; cases h
  | ub => intro h; cases h

/-! ## The number of formats is bounded -/

/-- A number for a combination of properties. -/
def code (f : V3Fmt) : Nat :=
  ((((f.colorFamily / 1000000).toNat * 2 + f.sampleType.toNat) * 33 + f.bitsPerSample.toNat) * 5 +
    f.subSamplingW.toNat) * 5 + f.subSamplingH.toNat

theorem entry_bounds {off : Int} {e : Int × V3Fmt} (h : Entry off e) :
    (NamedFamily e.2.colorFamily ∨ e.2.colorFamily = cmCompat) ∧
    0 ≤ e.2.sampleType ∧ e.2.sampleType ≤ 1 ∧ 8 ≤ e.2.bitsPerSample ∧ e.2.bitsPerSample ≤ 32 ∧
    0 ≤ e.2.subSamplingW ∧ e.2.subSamplingW ≤ 4 ∧ 0 ≤ e.2.subSamplingH ∧ e.2.subSamplingH ≤ 4 := by
  obtain ⟨_, h, _⟩ := h
  rcases h with ⟨⟨a, b, c, d, _⟩, _⟩ | ⟨a, _, b⟩
  · simp only [stInteger, stFloat] at b; exact ⟨Or.inl a, by omega⟩
  · exact ⟨Or.inr a, by omega⟩

theorem family_form {c : Int} (h : NamedFamily c ∨ c = cmCompat) :
    ∃ k : Nat, k < 10 ∧ c = 1000000 * k := by
  rcases h with (h | h | h | h) | h <;> subst h
  · exact ⟨1, by decide, rfl⟩
  · exact ⟨2, by decide, rfl⟩
  · exact ⟨3, by decide, rfl⟩
  · exact ⟨4, by decide, rfl⟩
  · exact ⟨9, by decide, rfl⟩

theorem code_lt {off : Int} {e : Int × V3Fmt} (h : Entry off e) : code e.2 < 16500 := by
  obtain ⟨hf, b1, b2, b3, b4, b5, b6, b7, b8⟩ := entry_bounds h
  obtain ⟨k, hk, ek⟩ := family_form hf
  have e1 : e.2.colorFamily / 1000000 = k := by omega
  unfold code
  rw [e1, Int.toNat_natCast]
  clear hf ek e1 h
  omega

theorem code_inj {off : Int} {e e' : Int × V3Fmt} (h : Entry off e) (h' : Entry off e')
    (hc : code e.2 = code e'.2) : SameTuple e.2 e'.2 := by
  obtain ⟨hf, b1, b2, b3, b4, b5, b6, b7, b8⟩ := entry_bounds h
  obtain ⟨hf', b1', b2', b3', b4', b5', b6', b7', b8'⟩ := entry_bounds h'
  obtain ⟨k, hk, ek⟩ := family_form hf
  obtain ⟨k', hk', ek'⟩ := family_form hf'
  have e1 : e.2.colorFamily / 1000000 = k := by omega
  have e1' : e'.2.colorFamily / 1000000 = k' := by omega
  unfold code at hc
  rw [e1, e1', Int.toNat_natCast, Int.toNat_natCast] at hc
  obtain ⟨t, et⟩ := Int.eq_ofNat_of_zero_le b1
  obtain ⟨b, eb⟩ := Int.eq_ofNat_of_zero_le (show 0 ≤ e.2.bitsPerSample by omega)
  obtain ⟨w, ew⟩ := Int.eq_ofNat_of_zero_le b5
  obtain ⟨h, eh⟩ := Int.eq_ofNat_of_zero_le b7
  obtain ⟨t', et'⟩ := Int.eq_ofNat_of_zero_le b1'
  obtain ⟨b', eb'⟩ := Int.eq_ofNat_of_zero_le (show 0 ≤ e'.2.bitsPerSample by omega)
  obtain ⟨w', ew'⟩ := Int.eq_ofNat_of_zero_le b5'
  obtain ⟨h', eh'⟩ := Int.eq_ofNat_of_zero_le b7'
  rw [et, eb, ew, eh, et', eb', ew', eh'] at hc
  simp only [Int.toNat_natCast] at hc
  rw [et] at b1 b2; rw [eb] at b3 b4; rw [ew] at b5 b6; rw [eh] at b7 b8
  rw [et'] at b1' b2'; rw [eb'] at b3' b4'; rw [ew'] at b5' b6'; rw [eh'] at b7' b8'
  unfold SameTuple Is
  rw [ek, ek', et, et', eb, eb', ew, ew', eh, eh']
  clear ek ek' et et' eb eb' ew ew' eh eh' e1 e1' hf hf'
  omega

theorem offset_bound {r : Reg} (h : Inv r) : 965 ≤ r.offset ∧ r.offset ≤ 17465 := by
  obtain ⟨_, h2, h3, h4⟩ := h
  have nd : (r.formats.map fun e => code e.2).Nodup := by
    rw [List.nodup_iff_pairwise_ne, List.pairwise_map]
    refine List.Pairwise.imp_of_mem ?_ h2
    intro a b ha hb hn hc
    exact hn (code_inj (h3 a ha) (h3 b hb) hc)
  have sub : (r.formats.map fun e => code e.2) ⊆ List.range 16500 := by
    intro x hx
    obtain ⟨e, he, rfl⟩ := List.mem_map.1 hx
    rw [List.mem_range]; exact code_lt (h3 e he)
  have := List.Nodup.length_le_of_subset nd sub
  rw [List.length_map, List.length_range] at this
  omega

/-! ## The map -/

theorem find_some {l : List (Int × V3Fmt)} {k : Int} {f : V3Fmt} (h : find l k = some f) : (k, f) ∈ l := by
  induction l with
  | nil => simp [find] at h
  | cons e t ih =>
    obtain ⟨k', f'⟩ := e
    unfold find at h
    split at h
    · rename_i e; subst e; cases h; simp
    · exact List.mem_cons_of_mem _ (ih h)

theorem find_of_mem {l : List (Int × V3Fmt)} (nd : l.Pairwise fun a b => a.1 ≠ b.1) {k : Int} {f : V3Fmt}
    (h : (k, f) ∈ l) : find l k = some f := by
  induction l with
  | nil => simp at h
  | cons e t ih =>
    obtain ⟨k', f'⟩ := e
    rw [List.pairwise_cons] at nd
    unfold find
    rcases List.mem_cons.1 h with h | h
    · cases h; simp
    · have := nd.1 _ h
      rw [if_neg this]; exact ih nd.2 h

theorem insert_perm {l : List (Int × V3Fmt)} {k : Int} {f : V3Fmt} (h : ∀ e ∈ l, e.1 ≠ k) :
    (insert l k f).Perm ((k, f) :: l) := by
  induction l with
  | nil => exact List.Perm.refl _
  | cons e t ih =>
    obtain ⟨k', f'⟩ := e
    unfold insert
    have hk : ¬ k' = k := h (k', f') (by simp)
    rw [if_neg hk]
    split
    · exact List.Perm.refl _
    · exact (List.Perm.cons _ (ih fun e he => h e (by simp [he]))).trans (List.Perm.swap _ _ _)

theorem search_some {l : List (Int × V3Fmt)} {c t b w h : Int} {f : V3Fmt}
    (hs : search l c t b w h = some f) : ∃ k, (k, f) ∈ l ∧ Is f c t b w h := by
  induction l with
  | nil => simp [search] at hs
  | cons e l ih =>
    obtain ⟨k', f'⟩ := e
    unfold search at hs
    split at hs
    · rename_i e; cases hs
      exact ⟨k', by simp, e.1, e.2.1, e.2.2.2.2, e.2.2.1, e.2.2.2.1⟩
    · obtain ⟨k, hk, hi⟩ := ih hs
      exact ⟨k, by simp [hk], hi⟩

theorem search_none {l : List (Int × V3Fmt)} {c t b w h : Int} (hs : search l c t b w h = none) :
    ∀ e ∈ l, ¬ Is e.2 c t b w h := by
  induction l with
  | nil => simp
  | cons e l ih =>
    obtain ⟨k', f'⟩ := e
    unfold search at hs
    split at hs
    · cases hs
    · rename_i hn
      intro e he hi
      rcases List.mem_cons.1 he with rfl | he
      · exact hn ⟨hi.1, hi.2.1, hi.2.2.2.1, hi.2.2.2.2, hi.2.2.1⟩
      · exact ih hs e he hi

/-! ## One request -/

/-- What a request does. -/
def StepOk (r r' : Reg) (o : Option V3Fmt) (c t b w h : Int) : Prop :=
  Inv r' ∧ (∀ id f, find r.formats id = some f → find r'.formats id = some f) ∧
  (Documented3 c t b w h → ∃ f, o = some f ∧ find r'.formats f.id = some f ∧ Is f c t b w h) ∧
  (¬ Documented3 c t b w h → o = none ∧ r' = r)

theorem query3_step {r : Reg} (hi : Inv r) {c : Int} (t b w h : Int)
    (hc : NamedFamily c ∨ c = cmCompat) :
    ∃ r' o, queryVideoFormat3 r c t b w h none 0 = .ok (r', o) ∧ StepOk r r' o c t b w h := by
  have rgb : ∀ {P : Prop}, ¬ Documented3 c t b w h →
      queryVideoFormat3 r c t b w h none 0 = .ok (r, none) →
      ∃ r' o, queryVideoFormat3 r c t b w h none 0 = .ok (r', o) ∧ StepOk r r' o c t b w h :=
    fun nd e => ⟨r, none, e, hi, fun _ _ x => x, fun d => absurd d nd, fun _ => ⟨rfl, rfl⟩⟩
  by_cases d : Documented3 c t b w h
  · have hcc : ¬ (c = cmCompat ∧ (none : Option (List Char)) = none) := by
      have := d.1; simp only [NamedFamily, cmGray, cmRGB, cmYUV, cmYCoCg, cmCompat] at *; omega
    have guards : queryVideoFormat3 r c t b w h none 0 =
        (match search r.formats c t b w h with
        | some f => .ok (r, some f)
        | none => do
          let p ← newId r 0 c
          let f : V3Fmt := {
            name := v3Name none c t b w h
            id := p.1
            colorFamily := c
            sampleType := t
            bitsPerSample := b
            bytesPerSample := bytesLoop 31 1 b
            subSamplingW := w
            subSamplingH := h
            numPlanes := if c = cmGray ∨ c = cmCompat then 1 else 3 }
          let l := insert r.formats p.1 f
          .ok (⟨l, p.2⟩, find l p.1)) := by
      unfold queryVideoFormat3
      obtain ⟨d1, d2, d3, d4, d5⟩ := d
      simp only [stInteger, stFloat] at d2
      rw [if_neg (by omega), if_neg (by omega), if_neg (by omega),
        if_neg (by simp only [stFloat]; omega), if_neg (by omega), if_neg hcc]
      rfl
    rw [guards]
    cases hs : search r.formats c t b w h with
    | some f =>
      obtain ⟨k, hk, his⟩ := search_some hs
      have hid := (hi.2.2.1 _ hk).1
      refine ⟨r, some f, rfl, hi, fun _ _ x => x, fun _ => ⟨f, rfl, ?_, his⟩, fun n => absurd d n⟩
      rw [hid]; exact find_of_mem hi.1 hk
    | none =>
      have ob := offset_bound hi
      obtain ⟨k, hk, ek⟩ := family_form hc
      have i1 : InI32 (c + r.offset) := by simp only [InI32, INT_MIN, INT_MAX]; omega
      have i2 : InI32 (r.offset + 1) := by simp only [InI32, INT_MIN, INT_MAX]; omega
      have hnew : newId r 0 c = .ok (c + r.offset, r.offset + 1) := by
        unfold newId
        rw [if_neg (by simp), i32_ok i1, i32_ok i2]; rfl
      simp only [hnew, Res.bind_ok]
      let f : V3Fmt := {
        name := v3Name none c t b w h
        id := c + r.offset
        colorFamily := c
        sampleType := t
        bitsPerSample := b
        bytesPerSample := bytesLoop 31 1 b
        subSamplingW := w
        subSamplingH := h
        numPlanes := if c = cmGray ∨ c = cmCompat then 1 else 3 }
      have fresh : ∀ e ∈ r.formats, e.1 ≠ c + r.offset := by
        intro e he hk
        have en := hi.2.2.1 e he
        obtain ⟨k', hk', ek'⟩ := family_form (entry_bounds en).1
        have := en.2.2.2.2
        omega
      have pm := insert_perm (f := f) fresh
      have nd1 : (insert r.formats (c + r.offset) f).Pairwise (fun a b => a.1 ≠ b.1) := by
        refine (List.Perm.pairwise_iff (fun h => Ne.symm h) pm).2 (List.pairwise_cons.2 ⟨?_, hi.1⟩)
        intro e he; exact (fresh e he).symm
      have fself : find (insert r.formats (c + r.offset) f) (c + r.offset) = some f :=
        find_of_mem nd1 (pm.mem_iff.2 (by simp))
      have hent : Entry (r.offset + 1) (c + r.offset, f) :=
        ⟨rfl, Or.inl ⟨d, rfl⟩, rfl, rfl, by simp only [f]; omega, by simp only [f]; omega⟩
      refine ⟨⟨insert r.formats (c + r.offset) f, r.offset + 1⟩, some f, ?_, ⟨nd1, ?_, ?_, ?_⟩, ?_, ?_,
        fun n => absurd d n⟩
      · rw [← fself]
      · refine (List.Perm.pairwise_iff (fun h h' => h h'.symm) pm).2 (List.pairwise_cons.2 ⟨?_, hi.2.1⟩)
        intro e he hst
        exact search_none hs e he hst.symm
      · intro e he
        rcases List.mem_cons.1 (pm.mem_iff.1 he) with rfl | he
        · exact hent
        · have en := hi.2.2.1 e he
          exact ⟨en.1, en.2.1, en.2.2.1, en.2.2.2.1, en.2.2.2.2.1, by have := en.2.2.2.2.2; simp only; omega⟩
      · simp only [pm.length_eq, List.length_cons]
        have := hi.2.2.2
        omega
      · intro id g hg
        exact find_of_mem nd1 (pm.mem_iff.2 (List.mem_cons_of_mem _ (find_some hg)))
      · intro _
        exact ⟨f, rfl, fself, rfl, rfl, rfl, rfl, rfl⟩
  · refine rgb (P := True) d ?_
    unfold queryVideoFormat3
    repeat' split
    all_goals first
      | rfl
      | (exfalso
         apply d
         simp only [Documented3, NamedFamily, cmGray, cmRGB, cmYUV, cmYCoCg, cmCompat, stInteger,
           stFloat, and_true] at *
         omega)

theorem toV3_family (c : Int) : NamedFamily (colorFamilyToV3 c) := by
  unfold colorFamilyToV3 NamedFamily
  repeat' split
  all_goals simp

theorem call_step {r : Reg} (hi : Inv r) (c : Call) (hc : NamedCall c) :
    ∃ r' o, call r c = .ok (r', o) ∧ Inv r' ∧
      (∀ id f, find r.formats id = some f → find r'.formats id = some f) ∧
      (∀ f, o = some f → find r'.formats f.id = some f) := by
  have q : ∀ (c t b w h : Int), (NamedFamily c ∨ c = cmCompat) →
      ∃ r' o, queryVideoFormat3 r c t b w h none 0 = .ok (r', o) ∧ Inv r' ∧
      (∀ id f, find r.formats id = some f → find r'.formats id = some f) ∧
      (∀ f, o = some f → find r'.formats f.id = some f) := by
    intro c t b w h hc
    obtain ⟨r', o, e, s1, s2, s3, s4⟩ := query3_step hi t b w h hc
    refine ⟨r', o, e, s1, s2, fun f hf => ?_⟩
    by_cases d : Documented3 c t b w h
    · obtain ⟨g, hg, k, _⟩ := s3 d
      rw [hf] at hg; cases hg; exact k
    · rw [(s4 d).1] at hf; cases hf
  cases c with
  | register c t b w h => exact q c t b w h hc
  | preset id =>
    rw [show call r (.preset id) = getVideoFormat3 r id from rfl]
    unfold getVideoFormat3
    split
    · refine ⟨r, _, rfl, hi, fun _ _ x => x, fun f hf => ?_⟩
      have := hi.2.2.1 _ (find_some hf)
      rw [this.1]; exact hf
    · exact q _ _ _ _ _ (Or.inl (toV3_family _))
  | toV3 f =>
    rw [show call r (.toV3 f) = videoFormatToV3 r f from rfl]
    unfold videoFormatToV3
    split
    · exact ⟨r, none, rfl, hi, fun _ _ x => x, fun f hf => by cases hf⟩
    · exact q _ _ _ _ _ (Or.inl (toV3_family _))

theorem run_step : ∀ (calls : List Call) {r : Reg}, Inv r → (∀ c ∈ calls, NamedCall c) →
    ∃ r' res, run r calls = .ok (r', res) ∧ Inv r' ∧
      (∀ id f, find r.formats id = some f → find r'.formats id = some f)
  | [], r, hi, _ => ⟨r, [], rfl, hi, fun _ _ x => x⟩
  | c :: t, r, hi, hc => by
    obtain ⟨r1, o, e1, hi1, k1, _⟩ := call_step hi c (hc c (by simp))
    obtain ⟨r2, res, e2, hi2, k2⟩ := run_step t hi1 (fun x hx => hc x (by simp [hx]))
    refine ⟨r2, o :: res, ?_, hi2, fun id f h => k2 _ _ (k1 _ _ h)⟩
    unfold run
    simp only [e1, e2, Res.bind_ok]

theorem reachable_inv {r : Reg} (h : Reachable r) : Inv r := by
  obtain ⟨r0, calls, res, h0, hc, hr⟩ := h
  obtain ⟨r1, e1, i1⟩ := newReg_inv
  rw [e1] at h0; cases h0
  obtain ⟨r2, res2, e2, i2, _⟩ := run_step calls i1 hc
  rw [e2] at hr; cases hr; exact i2

end VS.Format

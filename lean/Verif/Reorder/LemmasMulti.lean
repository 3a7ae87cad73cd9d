import Verif.Reorder.Lemmas

/-! Helper lemmas for the filters with several input clips. -/

namespace VS.Reorder

variable {α : Type}

theorem spliceCount_spec (counts : List Int) (acc : Int) (h0 : ∀ c ∈ counts, 0 ≤ c) (ha : 0 ≤ acc) :
    (acc + counts.sum ≤ INT_MAX → spliceCount counts acc = some (acc + counts.sum)) ∧
    (INT_MAX < acc + counts.sum → acc ≤ INT_MAX → spliceCount counts acc = none) := by
  induction counts generalizing acc with
  | nil => simp [spliceCount]
  | cons c cs ih =>
    have hc := h0 c (by simp)
    have hsum : 0 ≤ cs.sum := by
      clear ih
      induction cs with
      | nil => simp
      | cons x xs ih' =>
        have h1 := h0 x (by simp)
        have h2 := ih' (fun c hc => by rcases List.mem_cons.1 hc with h | h <;> exact h0 _ (by simp [h]))
        simp; omega
    have := ih (acc + c) (fun x hx => h0 x (by simp [hx])) (by omega)
    simp only [List.sum_cons, spliceCount]
    constructor
    · intro h
      rw [if_neg (by omega), this.1 (by omega)]
      congr 1; omega
    · intro h hacc
      split
      · rfl
      · exact this.2 (by omega) (by omega)

/-- Searching position `n` of the concatenation. -/
theorem spliceFind_spec {F : Type} (clips : List (List F)) (idx cum n : Nat)
    (hp : ∀ c ∈ clips, 0 < c.length) (hn : cum ≤ n) (hlt : n < cum + clips.flatten.length)
    (hmax : ((cum + clips.flatten.length : Nat) : Int) ≤ INT_MAX) :
    ∃ (j k : Nat) (c : List F), spliceFind n idx cum (clips.map fun c => (c.length : Int)) = .ok (idx + j, (k : Int)) ∧
      clips[j]? = some c ∧ k < c.length ∧ clips.flatten[n - cum]? = c[k]? := by
  induction clips generalizing idx cum with
  | nil => simp at hlt; omega
  | cons c cs ih =>
    have hI : ∀ x : Int, 0 ≤ x → x ≤ INT_MAX → i32 x = .ok x := fun x h1 h2 => i32_ok
      (by simp only [InI32, INT_MIN, INT_MAX] at *; omega)
    rw [List.flatten_cons, List.length_append] at hlt hmax
    simp only [List.map_cons, spliceFind]
    rw [if_pos (by omega), hI _ (by omega) (by omega)]
    simp only [Res.bind_ok, Res.pure_eq, List.isEmpty_map]
    by_cases h : n < cum + c.length
    · refine ⟨0, n - cum, c, ?_, rfl, by omega, ?_⟩
      · rw [if_pos (by simp; omega), hI _ (by omega) (by omega)]
        simp; omega
      · rw [List.flatten_cons, List.getElem?_append_left (by omega)]
    · have hne : cs ≠ [] := by
        rintro rfl; simp at hlt; omega
      obtain ⟨j, k, d, h1, h2, h3, h4⟩ := ih (idx + 1) (cum + c.length) (fun x hx => hp x (by simp [hx])) (by omega)
        (by omega) (by omega)
      refine ⟨j + 1, k, d, ?_, by simpa using h2, h3, ?_⟩
      · rw [if_neg (by simp; exact ⟨by omega, hne⟩)]
        rw [show (cum : Int) + c.length = ((cum + c.length : Nat) : Int) by omega, h1]
        congr 2; omega
      · rw [List.flatten_cons, List.getElem?_append_right (by omega), ← h4]
        congr 1; omega

/-- What `findCommonVi` maintains. -/
structure CommonInv (first : VideoInfo) (seen : List VideoInfo) (c : CommonVi) : Prop where
  dims : if ∀ v ∈ seen, v.width = first.width ∧ v.height = first.height
    then c.differentDimensions = false ∧ c.vi.width = first.width ∧ c.vi.height = first.height
    else c.differentDimensions = true ∧ c.vi.width = 0 ∧ c.vi.height = 0
  fmt : if ∀ v ∈ seen, v.fmt = first.fmt
    then c.differentFormat = false ∧ c.vi.fmt = first.fmt
    else c.differentFormat = true ∧ c.vi.fmt = 0
  fps : if ∀ v ∈ seen, v.fpsNum = first.fpsNum ∧ v.fpsDen = first.fpsDen
    then c.differentFrameRate = false ∧ c.vi.fpsNum = first.fpsNum ∧ c.vi.fpsDen = first.fpsDen
    else c.differentFrameRate = true ∧ c.vi.fpsNum = 0 ∧ c.vi.fpsDen = 0
  frames : c.vi.numFrames = (seen.map (·.numFrames)).foldl max first.numFrames

theorem commonInv_step {first : VideoInfo} {seen : List VideoInfo} {c : CommonVi}
    (h : CommonInv first seen c) (v : VideoInfo) : CommonInv first (seen ++ [v]) (commonViStep c v) := by
  obtain ⟨h1, h2, h3, h4⟩ := h
  constructor
  · have e : (commonViStep c v).differentDimensions = (stepDims c v).differentDimensions ∧
        (commonViStep c v).vi.width = (stepDims c v).vi.width ∧
        (commonViStep c v).vi.height = (stepDims c v).vi.height := by
      unfold commonViStep
      generalize stepDims c v = d
      unfold stepFrames; split <;> (try simp only []) <;> (unfold stepFps; split <;> (try simp only []) <;>
        (unfold stepFmt; split <;> simp))
    rw [e.1, e.2.1, e.2.2]
    unfold stepDims
    simp only [List.forall_mem_append, List.mem_singleton, forall_eq]
    by_cases hall : ∀ v ∈ seen, v.width = first.width ∧ v.height = first.height
    · rw [if_pos hall] at h1
      by_cases hv : v.width = first.width ∧ v.height = first.height
      · rw [if_pos ⟨hall, hv⟩, if_neg (by rw [h1.2.1, h1.2.2, hv.1, hv.2]; simp)]; exact h1
      · rw [if_neg (fun h => hv h.2), if_pos (by rw [h1.2.1, h1.2.2]; omega)]; simp
    · rw [if_neg hall] at h1
      rw [if_neg (fun h => hall h.1)]
      split <;> simp [h1]
  · have e : (commonViStep c v).differentFormat = (stepFmt c v).differentFormat ∧
        (commonViStep c v).vi.fmt = (stepFmt c v).vi.fmt := by
      have e1 : (stepDims c v).vi.fmt = c.vi.fmt := by unfold stepDims; split <;> rfl
      have e2 : (stepDims c v).differentFormat = c.differentFormat := by unfold stepDims; split <;> rfl
      unfold commonViStep
      have e3 : (stepFmt (stepDims c v) v).vi.fmt = (stepFmt c v).vi.fmt ∧
          (stepFmt (stepDims c v) v).differentFormat = (stepFmt c v).differentFormat := by
        unfold stepFmt; rw [e1]; split <;> simp [e1, e2]
      rw [← e3.1, ← e3.2]
      generalize stepFmt (stepDims c v) v = d
      unfold stepFrames; split <;> (try simp only []) <;> (unfold stepFps; split <;> simp)
    rw [e.1, e.2]
    unfold stepFmt
    simp only [List.forall_mem_append, List.mem_singleton, forall_eq]
    by_cases hall : ∀ v ∈ seen, v.fmt = first.fmt
    · rw [if_pos hall] at h2
      by_cases hv : v.fmt = first.fmt
      · rw [if_pos ⟨hall, hv⟩, if_neg (by rw [h2.2, hv]; simp)]; exact h2
      · rw [if_neg (fun h => hv h.2), if_pos (by rw [h2.2]; exact fun h => hv h.symm)]; simp
    · rw [if_neg hall] at h2
      rw [if_neg (fun h => hall h.1)]
      split <;> simp [h2]
  · have e : (commonViStep c v).differentFrameRate = (stepFps c v).differentFrameRate ∧
        (commonViStep c v).vi.fpsNum = (stepFps c v).vi.fpsNum ∧
        (commonViStep c v).vi.fpsDen = (stepFps c v).vi.fpsDen := by
      have e1 : (stepFmt (stepDims c v) v).vi.fpsNum = c.vi.fpsNum ∧
          (stepFmt (stepDims c v) v).vi.fpsDen = c.vi.fpsDen ∧
          (stepFmt (stepDims c v) v).differentFrameRate = c.differentFrameRate := by
        unfold stepFmt; split <;> (try simp only []) <;> (unfold stepDims; split <;> simp)
      unfold commonViStep
      generalize stepFmt (stepDims c v) v = d at *
      have e3 : (stepFps d v).vi.fpsNum = (stepFps c v).vi.fpsNum ∧
          (stepFps d v).vi.fpsDen = (stepFps c v).vi.fpsDen ∧
          (stepFps d v).differentFrameRate = (stepFps c v).differentFrameRate := by
        unfold stepFps; rw [e1.1, e1.2.1]; split <;> simp [e1]
      rw [← e3.1, ← e3.2.1, ← e3.2.2]
      unfold stepFrames; split <;> simp
    rw [e.1, e.2.1, e.2.2]
    unfold stepFps
    simp only [List.forall_mem_append, List.mem_singleton, forall_eq]
    by_cases hall : ∀ v ∈ seen, v.fpsNum = first.fpsNum ∧ v.fpsDen = first.fpsDen
    · rw [if_pos hall] at h3
      by_cases hv : v.fpsNum = first.fpsNum ∧ v.fpsDen = first.fpsDen
      · rw [if_pos ⟨hall, hv⟩, if_neg (by rw [h3.2.1, h3.2.2, hv.1, hv.2]; simp)]; exact h3
      · rw [if_neg (fun h => hv h.2), if_pos (by rw [h3.2.1, h3.2.2]; omega)]; simp
    · rw [if_neg hall] at h3
      rw [if_neg (fun h => hall h.1)]
      split <;> simp [h3]
  · have e1 : (stepFps (stepFmt (stepDims c v) v) v).vi.numFrames = c.vi.numFrames := by
      unfold stepFps; split <;> (try simp only []) <;> (unfold stepFmt; split <;> (try simp only []) <;>
        (unfold stepDims; split <;> simp))
    rw [List.map_append, List.foldl_append, ← h4]
    simp only [List.map_cons, List.map_nil, List.foldl_cons, List.foldl_nil, ← e1]
    unfold commonViStep
    generalize stepFps (stepFmt (stepDims c v) v) v = d
    unfold stepFrames
    split <;> (try simp only []) <;> omega

theorem findCommonVi_inv (first : VideoInfo) (rest : List VideoInfo) :
    CommonInv first rest (findCommonVi first rest) := by
  have key : ∀ (rest seen : List VideoInfo) (c : CommonVi), CommonInv first seen c →
      CommonInv first (seen ++ rest) (rest.foldl commonViStep c) := by
    intro rest
    induction rest with
    | nil => intro seen c h; simpa using h
    | cons v vs ih =>
      intro seen c h
      have := ih (seen ++ [v]) _ (commonInv_step h v)
      simpa using this
  have := key rest [] { vi := first } ⟨by simp, by simp, by simp, by simp⟩
  simpa [findCommonVi] using this

end VS.Reorder

import Verif.Average.Lemmas
import Verif.Generic.ConvProps

/-! # C81: AverageFrames -/

namespace VS.Average
open VS VS.Format VS.Map VS.Map.Spec VS.Pix VS.Pix.Spec VS.Point VS.Point.Spec VS.Pixel VS.Pixel.Spec VS.Generic VS.Generic.Spec VS.Average.Spec
open VS.Levels (rnd_int_close rabs_pos rounds_unique exL)

variable (F : AFloats)

/-! ## Frames -/

theorem getSingle_ok {get : Nat → Nat → Res Frm} {fs : Nat → Frm} : ∀ (k i : Nat) (fn : Int), fn ≤ 2 ^ 31 - 2 →
    (∀ j : Nat, j < k → get 0 (max 0 (min (fn + j) (2 ^ 31 - 2))).toNat = .ok (fs (i + j))) →
    getSingle get k fn = .ok ((List.range' i k).map fs) := by
  intro k
  induction k with
  | zero => intro i fn _ _; rfl
  | succ k ih =>
    intro i fn hfn h
    unfold getSingle
    have h0 := h 0 (by omega)
    rw [show max 0 (min (fn + ((0 : Nat) : Int)) (2 ^ 31 - 2)) = max 0 fn by omega] at h0
    rw [h0, Res.bind_ok, ih (i + 1) _ (by split <;> omega), Res.bind_ok, List.range'_succ, List.map_cons]
    · rfl
    · intro j hj
      have := h (j + 1) (by omega)
      rw [show i + 1 + j = i + (j + 1) by omega, ← this]
      congr 2
      split <;> omega

theorem getEach_ok {get : Nat → Nat → Res Frm} {fs : Nat → Frm} {n : Nat} : ∀ (k i : Nat),
    (∀ j : Nat, j < k → get (i + j) n = .ok (fs (i + j))) → getEach get n k i = .ok ((List.range' i k).map fs) := by
  intro k
  induction k with
  | zero => intro i _; rfl
  | succ k ih =>
    intro i h
    unfold getEach
    have h0 := h 0 (by omega)
    rw [Nat.add_zero] at h0
    rw [h0, Res.bind_ok, ih (i + 1), Res.bind_ok, List.range'_succ, List.map_cons]
    intro j hj
    have := h (j + 1) (by omega)
    rw [show i + 1 + j = i + (j + 1) by omega]
    exact this

theorem source_each {clips : List PClip} (h : clips.length ≠ 1) (k n i : Nat) : source clips k n i = (clips[i]?).bind fun c => at? c n := by
  match clips, h with
  | [], _ => rfl
  | [_], h => exact absurd rfl h
  | _ :: _ :: _, _ => rfl

theorem single_mem {k n j : Nat} (ho : k % 2 = 1) (hk : k ≤ 31) (hn : n ≤ 2 ^ 31 - 2) (hj : j < k) :
    (0, (max 0 (min ((n : Int) - (k / 2 : Nat) + j) (2 ^ 31 - 2))).toNat) ∈ avgReqs 1 k n := by
  unfold avgReqs
  rw [if_pos rfl]
  refine List.mem_map.2 ⟨_, List.mem_range'_1.2 ⟨?_, ?_⟩, rfl⟩
  · omega
  · split <;> omega

theorem single_at {al : Nat} {c : PClip} (vc : ValidClip al c) {k n j : Nat} (hn : n ≤ 2 ^ 31 - 2) :
    at? c (max 0 (min ((n : Int) - (k / 2 : Nat) + j) (2 ^ 31 - 2))).toNat = at? c (n + j - k / 2) := by
  unfold at?
  have hl := vc.count
  have hN := vc.range
  unfold INT_MAX at hN
  have : min (max 0 (min ((n : Int) - (k / 2 : Nat) + j) (2 ^ 31 - 2))).toNat (c.frames.length - 1) = min (n + j - k / 2) (c.frames.length - 1) := by
    omega
  rw [this]

theorem getFrames_ok {al : Nat} {clips : List PClip} (hne : clips ≠ []) (hv : ∀ d ∈ clips, ValidClip al d) {k n : Nat}
    {scenes : Bool} (hk : CountOk clips.length k scenes) (hn : n ≤ 2 ^ 31 - 2) {fs : Nat → Frm}
    (hs : ∀ i, i < k → source clips k n i = some (fs i)) :
    getFrames (getFrameFilter clips (avgReqs clips.length k n)) clips.length k n = .ok ((List.range' 0 k).map fs) := by
  obtain ⟨k1, k2, k3⟩ := hk
  unfold getFrames
  by_cases h1 : clips.length = 1
  · rw [if_pos h1]
    have ho := k1 h1
    obtain ⟨c, rfl⟩ := List.length_eq_one_iff.1 h1
    have vc := hv c (by simp)
    refine getSingle_ok k 0 _ (by omega) ?_
    intro j hj
    have hm := single_mem (k := k) ho k3 hn hj
    have hat := single_at vc (k := k) (n := n) (j := j) hn
    generalize (max 0 (min ((n : Int) - (k / 2 : Nat) + j) (2 ^ 31 - 2))).toNat = m at hm hat
    refine get_ok (i := 0) rfl vc hm ?_
    rw [Nat.zero_add, ← hs j hj]
    exact hat
  · rw [if_neg h1]
    obtain ⟨e, _⟩ := k2 h1
    refine getEach_ok k 0 ?_
    intro j hj
    rw [Nat.zero_add]
    have := hs j hj
    rw [source_each h1] at this
    obtain ⟨d, hd⟩ : ∃ d, clips[j]? = some d := ⟨_, List.getElem?_eq_getElem (by omega)⟩
    rw [hd] at this
    refine get_ok hd (hv d (List.mem_of_getElem? hd)) ?_ this
    unfold avgReqs
    rw [if_neg h1]
    exact List.mem_map.2 ⟨j, List.mem_range.2 (by omega), rfl⟩

/-! ## Planes -/

theorem readPtrs_ok {p : Nat} {fs : Nat → Frm} {bf : Nat → Buf} : ∀ (m i : Nat), (∀ j, i ≤ j → j < i + m → (fs j).plane p = .ok (bf j)) →
    readPtrs p ((List.range' i m).map fs) = .ok ((List.range' i m).map bf) := by
  intro m
  induction m with
  | zero => intro i _; rfl
  | succ m ih =>
    intro i h
    rw [List.range'_succ, List.map_cons, List.map_cons]
    unfold readPtrs
    rw [h i (by omega) (by omega), Res.bind_ok, ih (i + 1) fun j h1 h2 => h j (by omega) (by omega), Res.bind_ok]

theorem readEach_ok {n off : Nat} {bf : Nat → Buf} {v : Nat → Nat} : ∀ (m i : Nat), (∀ j, i ≤ j → j < i + m → rd (bf j) n off = .ok (v j)) →
    readEach n off ((List.range' i m).map bf) = .ok ((List.range' i m).map v) := by
  intro m
  induction m with
  | zero => intro i _; rfl
  | succ m ih =>
    intro i h
    rw [List.range'_succ, List.map_cons, List.map_cons]
    unfold readEach
    rw [h i (by omega) (by omega), Res.bind_ok, ih (i + 1) fun j h1 h2 => h j (by omega) (by omega), Res.bind_ok]

/-- Frames of the same format and size. -/
def Alike (al : Nat) (k : Nat) (fs : Nat → Frm) (f : Frm) : Prop :=
  ∀ i, i < k → Valid al (fs i) ∧ (fs i).fmt = f.fmt ∧ (fs i).width = f.width ∧ (fs i).height = f.height

theorem new_fmt {al : Nat} {fmt : VFmt} {w h : Nat} {srcs : List (Option (Frm × Int))} {props : Dict} {junk : Junk} {g : Frm}
    (hg : newVideoFrameOpt al fmt w h srcs props junk = .ok g) : g.fmt = fmt ∧ g.width = w ∧ g.height = h := by
  unfold newVideoFrameOpt at hg
  by_cases c : (w : Int) ≤ 0 ∨ (h : Int) ≤ 0
  · rw [if_pos c] at hg
    cases hg
  · rw [if_neg c] at hg
    obtain ⟨l, _, e⟩ := bind_eq_ok hg
    cases e
    exact ⟨rfl, Int.toNat_natCast w, Int.toNat_natCast h⟩

theorem avgFrame_ok {al : Nat} (hal : 0 < al) {s : Setup} {clips k : Nat} (hk0 : 0 < k) (hk : k ≤ 31) {fs : Nat → Frm} {f : Frm} (va : Valid al f)
    (hw : Workable f.fmt) (hf : fs (if clips = 1 then k / 2 else 0) = f) (hfs : Alike al k fs f) {G : Nat → Nat → Nat → Nat}
    (hG : ∀ kk, KindOk f.fmt kk → ∀ p x y : Nat, (p : Int) < f.fmt.numPlanes → s.process.getD p false = true →
      avgCell F kk f.fmt p (planFor s ((List.range' 0 k).map fs)) ((List.range' 0 k).map fun i => smp al (fs i) p x y) = .ok (G p x y))
    (junk : Junk) :
    ∃ g, avgFrame F al s clips ((List.range' 0 k).map fs) junk = .ok g ∧ Valid al g ∧ g.fmt = f.fmt ∧ g.width = f.width ∧ g.height = f.height ∧
      g.props = f.props ∧ ∀ p x y : Nat, (p : Int) < f.fmt.numPlanes → x < g.w p → y < g.h p →
        smp al g p x y = if s.process.getD p false then G p x y % 256 ^ bps f.fmt else smp al f p x y := by
  obtain ⟨kk, hkk, hkb, hko⟩ := pixKind_ok va.fmt hw
  have hc : ((List.range' 0 k).map fs)[if clips = 1 then ((List.range' 0 k).map fs).length / 2 else 0]? = some f := by
    rw [List.length_map, List.length_range', List.getElem?_map, List.getElem?_range' (by split <;> omega)]
    rw [Nat.zero_add, Nat.one_mul, ← hf]
    rfl
  unfold avgFrame
  rw [hc]
  dsimp only
  have hkey := flags_ok va rfl (fun p => s.process.getD p false)
    (fun p b => avgPlane F al (planFor s ((List.range' 0 k).map fs)) ((List.range' 0 k).map fs) f p b) G f.props junk ?_
  · obtain ⟨g, e, hg⟩ := hkey
    refine ⟨g, ?_, hg⟩
    rw [← e]
    obtain ⟨dst, ed, ed2⟩ := bind_eq_ok e
    rw [ed, Res.bind_ok, Res.bind_ok]
    obtain ⟨d1, d2, d3⟩ := new_fmt ed
    congr 1
    funext p b
    have : avgPlane F al (planFor s ((List.range' 0 k).map fs)) ((List.range' 0 k).map fs) dst p b =
        avgPlane F al (planFor s ((List.range' 0 k).map fs)) ((List.range' 0 k).map fs) f p b := by
      unfold avgPlane
      rw [d1, w_eq d1 d2, h_eq d1 d3, stride_eq d1 d2]
    rw [this]
  · intro p b hp hpr hsz
    unfold avgPlane
    rw [if_neg (by rw [List.length_map, List.length_range']; omega)]
    have hpl : ∀ i, i < k → ∃ b, (fs i).planes[p]? = some b := by
      intro i hi
      obtain ⟨v, e, _⟩ := hfs i hi
      have := v.count
      rw [e] at this
      exact ⟨_, List.getElem?_eq_getElem (by omega)⟩
    rw [readPtrs_ok (bf := fun i => ((fs i).planes[p]?).getD b) k 0 (by
      intro j _ hj
      obtain ⟨b', e⟩ := hpl j (by omega)
      unfold Frm.plane
      rw [e]
      rfl), Res.bind_ok, hkk]
    dsimp only
    rw [hkb]
    refine fill_ok (G := G p) (stride_ge hal f p) ?_ hsz
    intro x y hx hy
    rw [readEach_ok (v := fun i => smp al (fs i) p x y) k 0 (by
      intro j _ hj
      obtain ⟨b', e⟩ := hpl j (by omega)
      obtain ⟨v, e1, e2, e3⟩ := hfs j (by omega)
      have := rd_smp hal v e (x := x) (y := y) (by rw [w_eq e1 e2]; exact hx) (by rw [h_eq e1 e3]; exact hy)
      rw [e1, stride_eq e1 e2] at this
      rw [e]
      exact this), Res.bind_ok]
    exact hG kk hko p x y hp hpr

/-! ## Weights -/

theorem plan_weights {s : Setup} {k : Nat} (hk : s.scenes = true → k % 2 = 1) (hs : s.size = k) (hl : s.weights.length = k) (hk0 : 0 < k)
    (fs : Nat → Frm) (v : Nat → Int) :
    ((planFor s ((List.range' 0 k).map fs)).weights.length = k ∧ wabs (planFor s ((List.range' 0 k).map fs)).weights ≤ wabs s.weights ∧
      wsum v 0 (planFor s ((List.range' 0 k).map fs)).weights = wsum (fun i => v (counts s.scenes k fs i)) 0 s.weights) ∧
    ∃ a b, (planFor s ((List.range' 0 k).map fs)).floats = s.floats a b ∧ (s.scenes = true → ∀ i, i < k → (InScene k fs i ↔ a ≤ i ∧ i ≤ b)) ∧
      (s.scenes = false → a = 0 ∧ b = k) := by
  have hat : ∀ (key : Key) j, j < k → (match ((List.range' 0 k).map fs)[j]? with | some f => flag key f | none => false) = flag key (fs j) := by
    intro key j hj
    rw [List.getElem?_map, List.getElem?_range' hj, Nat.zero_add, Nat.one_mul]
    rfl
  unfold planFor
  dsimp only
  cases hsc : s.scenes with
  | false =>
    rw [if_neg (by decide), if_neg (by decide), if_neg (by decide)]
    refine ⟨⟨hl, Nat.le_refl _, ?_⟩, 0, s.size, rfl, (fun h => by cases h), fun _ => ⟨rfl, hs⟩⟩
    refine wsum_congr _ _ fun j _ _ => ?_
    unfold counts
    rw [if_neg (fun h => by cases h.1)]
  | true =>
    rw [if_pos rfl, if_pos rfl, if_pos rfl, hs]
    have hin := scene_spec (hk hsc) (fs := fs) (hat "_SceneChangePrev") (hat "_SceneChangeNext")
    generalize fromLoop _ (k / 2) = a at hin
    generalize toLoop _ k _ _ = b at hin
    refine ⟨⟨by rw [moved_length, hl], moved_wabs a b _, ?_⟩, a, b, rfl, fun _ => hin, fun h => by cases h⟩
    rw [moved_wsum a b (by intro h; rw [h] at hl; simp at hl; omega), hl]
    refine wsum_congr _ _ fun j _ hj => ?_
    have := hin j (by omega)
    unfold counts
    by_cases c : InScene k fs j
    · rw [if_neg (by have := this.1 c; omega), if_neg (fun h => h.2 c)]
    · rw [if_pos (by rw [this] at c; omega), if_pos ⟨rfl, c⟩]

/-! ## Arguments -/

theorem count_ok {clips k : Nat} {scenes : Bool} (hc : 0 < clips) : countError clips k scenes = none ↔ CountOk clips k scenes := by
  unfold countError CountOk
  by_cases h1 : clips = 1
  · by_cases h2 : k % 2 = 1
    · by_cases h3 : k > 31
      · simp [h1, h2, h3]
      · simp [h1, h2, h3, show k ≤ 31 by omega]
    · simp [h1, h2]
  · by_cases h2 : k = clips
    · by_cases h3 : clips > 31
      · simp [h1, h2, h3]
      · cases scenes <;> simp [h1, h2, show ¬ clips > 31 by omega, show clips ≤ 31 by omega]
    · simp [h1, h2]

theorem sameInfos_ok {rest : List PClip} : ∀ vi : VInfo, (∀ d ∈ rest, isSameVideoInfo vi d.vi = true) → 0 ≤ vi.numFrames →
    sameInfos vi (rest.map (·.vi)) = .ok { vi with numFrames := max vi.numFrames (longest rest) } := by
  induction rest with
  | nil =>
    intro vi _ h
    show Res.ok _ = Res.ok _
    unfold longest
    rw [Int.max_eq_left h]
  | cons d t ih =>
    intro vi hs h
    rw [List.map_cons]
    unfold sameInfos
    rw [if_pos (show isSameVideoInfo { vi with numFrames := max vi.numFrames d.vi.numFrames } d.vi = true from hs d List.mem_cons_self)]
    have := ih { vi with numFrames := max vi.numFrames d.vi.numFrames } (fun e he => hs e (List.mem_cons_of_mem _ he))
      (show 0 ≤ max vi.numFrames d.vi.numFrames by omega)
    rw [this]
    dsimp only [longest]
    rw [Int.max_assoc]

theorem sameInfos_bad {rest : List PClip} : ∀ vi : VInfo, (¬ ∀ d ∈ rest, isSameVideoInfo vi d.vi = true) →
    ∃ m, sameInfos vi (rest.map (·.vi)) = .err m := by
  induction rest with
  | nil => exact fun vi hs => absurd (fun d hd => by cases hd) hs
  | cons d t ih =>
    intro vi hs
    rw [List.map_cons]
    unfold sameInfos
    by_cases h : isSameVideoInfo { vi with numFrames := max vi.numFrames d.vi.numFrames } d.vi = true
    · rw [if_pos h]
      refine ih _ (fun ht => hs fun e he => ?_)
      rcases List.mem_cons.1 he with rfl | he
      · exact h
      · exact ht e he
    · rw [if_neg h]
      exact ⟨_, rfl⟩

theorem getWeights_int {f : VFmt} (ht : f.sampleType = stInteger) {weights : List Nat} {ws : List Int} (h : CoeffsAre F.toFloats weights ws) :
    getWeights F f weights = .ok ws := by
  induction weights generalizing ws with
  | nil =>
    cases ws with
    | nil => rfl
    | cons _ _ => exact absurd h id
  | cons b t ih =>
    cases ws with
    | nil => exact absurd h id
    | cons c l =>
      obtain ⟨⟨q, e, hr, h1, h2⟩, hl⟩ := h
      unfold getWeights
      rw [e]
      dsimp only
      rw [if_pos ht, rounds_unique (roundAway_spec q) hr, if_neg (by omega), ih hl, Res.bind_ok]

theorem getWeights_inv {f : VFmt} (ht : f.sampleType = stInteger) {weights : List Nat} : (∃ m, getWeights F f weights = .err m) ∨
    ∃ ws, getWeights F f weights = .ok ws ∧ CoeffsAre F.toFloats weights ws := by
  induction weights with
  | nil => exact Or.inr ⟨[], rfl, trivial⟩
  | cons b t ih =>
    unfold getWeights
    cases e : F.value b with
    | none => exact Or.inl ⟨_, rfl⟩
    | some q =>
      dsimp only
      rw [if_pos ht]
      by_cases h : roundAway q < -1023 ∨ roundAway q > 1023
      · rw [if_pos h]; exact Or.inl ⟨_, rfl⟩
      · rw [if_neg h]
        rcases ih with ⟨m, e2⟩ | ⟨ws, e2, hc⟩
        · rw [e2]; exact Or.inl ⟨_, rfl⟩
        · rw [e2, Res.bind_ok]
          exact Or.inr ⟨_, rfl, ⟨q, e, roundAway_spec q, by omega, by omega⟩, hc⟩

theorem getWeights_float {f : VFmt} (ht : f.sampleType ≠ stInteger) {weights : List Nat} :
    ((∀ b ∈ weights, ∃ q, F.value b = some q) → getWeights F f weights = .ok (weights.map fun _ => 0)) ∧
    ((¬ ∀ b ∈ weights, ∃ q, F.value b = some q) → ∃ m, getWeights F f weights = .err m) := by
  induction weights with
  | nil => exact ⟨fun _ => rfl, fun h => absurd (fun b hb => by cases hb) h⟩
  | cons b t ih =>
    unfold getWeights
    cases e : F.value b with
    | none =>
      refine ⟨fun h => ?_, fun _ => ⟨_, rfl⟩⟩
      obtain ⟨q, hq⟩ := h b List.mem_cons_self
      rw [e] at hq
      cases hq
    | some q =>
      dsimp only
      rw [if_neg ht]
      constructor
      · intro h
        rw [ih.1 fun x hx => h x (List.mem_cons_of_mem _ hx), Res.bind_ok]
        rfl
      · intro h
        obtain ⟨m, e2⟩ := ih.2 (by
          intro hx
          refine h fun x hx' => ?_
          rcases List.mem_cons.1 hx' with rfl | hx'
          · exact ⟨q, e⟩
          · exact hx x hx')
        rw [e2]
        exact ⟨m, rfl⟩

theorem getScale_int {f : VFmt} (ht : f.sampleType = stInteger) {arg : Option Nat} {ws : List Int} {sc : Int} (h : ScaleIs F arg ws sc) :
    getScale F f arg ws = .ok sc ∧ 1 ≤ sc := by
  unfold getScale
  rcases h with ⟨rfl, rfl⟩ | ⟨b, q, rfl, e, h1, h2, h3⟩
  · refine ⟨?_, by omega⟩
    dsimp only
    congr 1
    split <;> omega
  · refine ⟨?_, h1⟩
    dsimp only
    rw [e]
    dsimp only
    rw [if_pos ht]
    have : floatToIntS q = sc := by
      unfold floatToIntS
      rcases h3 with ⟨hq, hr⟩ | ⟨hq, rfl⟩
      · rw [if_neg (Rat.not_lt.2 hq)]
        have := rounds_unique (roundAway_spec q) hr
        rw [if_neg, this]
        · unfold wrap32
          omega
        · intro hn
          have := rabs_le.1 hr.1
          have e1 := Rat.intCast_le_intCast.2 h1
          have e2 : ((1 : Int) : Rat) = 1 := rfl
          grind
      · rw [if_pos hq]
    rw [this, if_neg (by omega)]

theorem getScale_inv {f : VFmt} (ht : f.sampleType = stInteger) (arg : Option Nat) (ws : List Int) :
    (∃ m, getScale F f arg ws = .err m) ∨ ∃ sc, ScaleIs F arg ws sc := by
  unfold getScale
  cases arg with
  | none => exact Or.inr ⟨_, Or.inl ⟨rfl, rfl⟩⟩
  | some b =>
    dsimp only
    cases e : single F.toFloats b with
    | none => exact Or.inl ⟨_, rfl⟩
    | some q =>
      dsimp only
      rw [if_pos ht]
      by_cases h : floatToIntS q < 1
      · rw [if_pos h]; exact Or.inl ⟨_, rfl⟩
      · refine Or.inr ⟨floatToIntS q, Or.inr ⟨b, q, rfl, e, by omega, ?_⟩⟩
        have hr := roundAway_spec q
        revert h
        unfold floatToIntS
        by_cases c1 : q > 2 ^ 31
        · rw [if_pos c1]
          exact fun _ => ⟨by omega, Or.inr ⟨c1, rfl⟩⟩
        rw [if_neg c1]
        have c1' := Rat.not_lt.1 c1
        by_cases c2 : q < -2 ^ 31
        · rw [if_pos c2]
          intro h
          omega
        rw [if_neg c2]
        intro h
        have hb := rabs_le.1 hr.1
        have c2' := Rat.not_lt.1 c2
        have b1 : roundAway q < 2 ^ 31 + 1 := by
          refine Rat.intCast_lt_intCast.1 ?_
          have e : ((2 ^ 31 + 1 : Int) : Rat) = 2147483649 := rfl
          grind
        have b2 : -2 ^ 31 - 1 < roundAway q := by
          refine Rat.intCast_lt_intCast.1 ?_
          have e : ((-2 ^ 31 - 1 : Int) : Rat) = -2147483649 := rfl
          grind
        have : wrap32 (roundAway q) = roundAway q := by
          revert h
          unfold wrap32
          omega
        rw [this] at h ⊢
        refine ⟨?_, Or.inl ⟨c1', hr⟩⟩
        revert this
        unfold wrap32
        omega

theorem info_frames {vi : VInfo} (h : isValidVideoInfo vi = .ok true) {N : Int} (hN : 1 ≤ N) :
    isValidVideoInfo { vi with numFrames := N } = .ok true := by
  rw [info_iff] at h ⊢
  obtain ⟨h1, h2, h3, h4, h5, h6, h7⟩ := h
  exact ⟨h1, h2, h3, h4, h5, hN, h7⟩

theorem create_steps {al : Nat} {c : PClip} {rest : List PClip} (hin : Inputs al c rest) {planes : List Int}
    {weights : List Nat} {scale : Option Nat} {sc : Option Int} (hk : CountOk (c :: rest).length weights.length (on sc)) :
    averageCreate F al ((c :: rest).map (·.vi)) weights scale sc planes =
      getWeights F c.vi.format weights >>= fun ws => getScale F c.vi.format scale ws >>= fun s => getPlanesArg "AverageFrames" planes >>= fun process =>
        create (avgFilter F al { c.vi with numFrames := longest (c :: rest) } (c :: rest).length
          ⟨ws, weights.length, s, fun a b k => F.avg k weights scale a b, on sc, process⟩) := by
  obtain ⟨hv, hw, hc, hfit⟩ := hin
  have vc := hv c List.mem_cons_self
  unfold averageCreate
  rw [List.length_map]
  dsimp only
  rw [(count_ok (by simp)).2 (show CountOk (c :: rest).length weights.length (decide (sc.getD 0 ≠ 0)) from hk)]
  dsimp only
  rw [List.map_cons]
  dsimp only
  rw [(workable_iff _).2 hw, if_neg (by decide), if_neg (by have := hc.1; have := hc.2.1; omega)]
  have hpos := ((info_iff _).1 vc.info).2.2.2.2.2.1
  have := sameInfos_ok (rest := rest) c.vi (fun d hd => (fit_iff vc (hv d (List.mem_cons_of_mem _ hd)) hc).2 (hfit d hd)) (by omega)
  rw [this, Res.bind_ok]
  rfl

theorem long_pos {al : Nat} {c : PClip} {rest : List PClip} (hin : Inputs al c rest) : 1 ≤ longest (c :: rest) := by
  have := ((info_iff _).1 (hin.valid c List.mem_cons_self).info).2.2.2.2.2.1
  unfold longest
  omega

theorem source_mem {clips : List PClip} {k n i : Nat} {f : Frm} (h : source clips k n i = some f) : ∃ d ∈ clips, f ∈ d.frames := by
  by_cases hl : clips.length = 1
  · match clips, hl, h with
    | [c], _, h => exact ⟨c, by simp, at_mem h⟩
  · rw [source_each hl] at h
    obtain ⟨d, hd, hf⟩ := Option.bind_eq_some_iff.1 h
    exact ⟨d, List.mem_of_getElem? hd, at_mem hf⟩

theorem alike {al : Nat} {c : PClip} {rest : List PClip} (hin : Inputs al c rest) {n k : Nat} {f : Frm} (hf : at? c n = some f) {fs : Nat → Frm}
    (hs : ∀ i, i < k → source (c :: rest) k n i = some (fs i)) : Alike al k fs f := by
  have vc := (hin.valid c List.mem_cons_self)
  obtain ⟨va, ef, ew, eh⟩ := const_frame vc hin.const (at_mem hf)
  intro i hi
  obtain ⟨d, hd, hm⟩ := source_mem (hs i hi)
  have vd := hin.valid d hd
  refine ⟨vd.frames _ hm, ?_⟩
  rcases List.mem_cons.1 hd with rfl | hd'
  · obtain ⟨_, a1, a2, a3⟩ := const_frame vc hin.const hm
    exact ⟨by rw [a1, ef], by omega, by omega⟩
  · exact fit_frame vc vd hin.const (hin.fit d hd') (at_mem hf) hm

theorem avg_gives {al : Nat} (hal : AlignOk al) {c : PClip} {rest : List PClip} (hin : Inputs al c rest) {planes : List Int} {s : Setup}
    (hpr : ∀ p : Nat, p < 3 → s.process.getD p false = decide (Wanted planes p)) (hk : CountOk (c :: rest).length s.size s.scenes) {n : Nat}
    (hn : n ≤ 2 ^ 31 - 2) {fs : Nat → Frm} (hs : ∀ i, i < s.size → source (c :: rest) s.size n i = some (fs i)) {f : Frm} (hf : at? c n = some f)
    {G : Nat → Nat → Nat → Nat}
    (hG : ∀ kk, KindOk f.fmt kk → ∀ p x y : Nat, (p : Int) < f.fmt.numPlanes → Wanted planes p →
      avgCell F kk f.fmt p (planFor s ((List.range' 0 s.size).map fs)) ((List.range' 0 s.size).map fun i => smp al (fs i) p x y) = .ok (G p x y)) :
    Gives al (.filter (avgFilter F al { c.vi with numFrames := longest (c :: rest) } (c :: rest).length s)) (c :: rest) n f.fmt f.width f.height f.props
      fun p x y => if Wanted planes p then ((G p x y % 256 ^ bps f.fmt : Nat) : Int) else smp al f p x y := by
  have vc := (hin.valid c List.mem_cons_self)
  obtain ⟨va, ef, ew, eh⟩ := const_frame vc hin.const (at_mem hf)
  have hnp := (fmtOk va.fmt va.known).planes
  have hk0 : 0 < s.size := by
    obtain ⟨k1, k2, _⟩ := hk
    by_cases h : (c :: rest).length = 1
    · have := k1 h; omega
    · have := (k2 h).1; rw [this, List.length_cons]; omega
  have hall : Alike al s.size fs f := alike hin hf hs
  have hcen : fs (if (c :: rest).length = 1 then s.size / 2 else 0) = f := by
    by_cases h : (c :: rest).length = 1
    · rw [if_pos h]
      have hr : rest = [] := by simpa using h
      subst hr
      have := hs (s.size / 2) (by omega)
      have h2 : at? c (n + s.size / 2 - s.size / 2) = some (fs (s.size / 2)) := this
      rw [Nat.add_sub_cancel, hf] at h2
      injection h2 with h2
      exact h2.symm
    · rw [if_neg h]
      have := hs 0 hk0
      rw [source_each h] at this
      have h2 : at? c n = some (fs 0) := this
      rw [hf] at h2
      injection h2 with h2
      exact h2.symm
  refine gives_of ef.symm ew.symm eh.symm ?_
  intro junk
  obtain ⟨g, e, v, g1, g2, g3, g4, g5⟩ := avgFrame_ok F (align_pos hal) (s := s) (clips := (c :: rest).length) hk0 hk.2.2 va
    (by rw [ef]; exact hin.work) hcen hall (G := G) (by
      intro kk hkk p x y hp hpp
      refine hG kk hkk p x y hp ?_
      rw [hpr p (by omega)] at hpp
      exact of_decide_eq_true hpp) junk
  refine ⟨g, ?_, v, g1, g2, g3, g4, ?_⟩
  · show (getFrames (getFrameFilter (c :: rest) (avgReqs (c :: rest).length s.size n)) (c :: rest).length s.size n >>= _) = _
    rw [getFrames_ok (by simp) hin.valid hk hn hs, Res.bind_ok, e]
  · intro p x y hp hx hy
    rw [g5 p x y hp hx hy, hpr p (by omega)]
    by_cases w : Wanted planes p
    · rw [decide_eq_true w, if_pos rfl, if_pos w]
    · rw [decide_eq_false w, if_neg w]; rfl

/-! ## C81 -/

theorem zero_bounds {f : VFmt} (h8 : 8 ≤ f.bitsPerSample) (h16 : f.bitsPerSample ≤ 16) (p : Nat) : 0 ≤ zero f p ∧ zero f p ≤ 2 ^ 15 := by
  unfold zero
  split
  · have : f.bitsPerSample.toNat - 1 ≤ 15 := by omega
    have h := Nat.pow_le_pow_right (show 1 ≤ 2 by omega) this
    have e : ((2 : Int) ^ (f.bitsPerSample.toNat - 1)) = ((2 ^ (f.bitsPerSample.toNat - 1) : Nat) : Int) := by push_cast; rfl
    rw [e]
    exact ⟨Int.natCast_nonneg _, by exact_mod_cast h⟩
  · omega

theorem kind_word {f : VFmt} {kk : Kind} (h : KindOk f kk) (ht : f.sampleType = stInteger) : kk = .byte ∨ kk = .word := by
  rcases (int_kind h ht).2 with ⟨h, _⟩ | ⟨h, _⟩
  · exact Or.inl h
  · exact Or.inr h

theorem bps_small {f : VFmt} {kk : Kind} (h : KindOk f kk) (ht : f.sampleType = stInteger) : 256 ^ bps f ≤ 65536 := by
  rcases (int_kind h ht).2 with ⟨_, e, _⟩ | ⟨_, e⟩ <;> rw [e] <;> decide

theorem choice3 {P : Nat → Nat → Nat → Nat → Prop} (h : ∀ p x y, ∃ r, P p x y r) : ∃ res : Nat → Nat → Nat → Nat, ∀ p x y, P p x y (res p x y) :=
  ⟨fun p x y => (h p x y).choose, fun p x y => (h p x y).choose_spec⟩

/-- C81: AverageFrames makes a frame of `k` others, where `k` is the number of weights: those around frame `n` of a clip, with the
first and the last one repeated, or frame `n` of each of `k` clips. From each sample 0, or the middle of the range for the chroma of YUV,
is subtracted, the differences are multiplied by the weights and added up, the sum is divided by the scale and what was subtracted is added;
the result is limited to the range. With `scenechange` frames of other scenes are replaced by the one in the middle.
The calculation never overflows. -/
theorem C81_average {al : Nat} (hal : AlignOk al) {c : PClip} {rest : List PClip} (hin : Inputs al c rest) (ht : c.vi.format.sampleType = stInteger)
    {planes : List Int} (hp : PlanesOk planes) {weights : List Nat} {scale : Option Nat} {scenechange : Option Int}
    (hk : CountOk (c :: rest).length weights.length (on scenechange)) {ws : List Int} (hws : CoeffsAre F.toFloats weights ws) {sc : Int}
    (hsc : ScaleIs F scale ws sc) :
    ∃ C, averageCreate F al ((c :: rest).map (·.vi)) weights scale scenechange planes = .ok C ∧
      outInfo C (c :: rest) = some { c.vi with numFrames := longest (c :: rest) } ∧
      ∀ n, n ≤ 2 ^ 31 - 2 → ∀ fs : Nat → Frm, (∀ i, i < weights.length → source (c :: rest) weights.length n i = some (fs i)) →
        ∀ f, at? c n = some f → ∃ res : Nat → Nat → Nat → Nat,
          (∀ p x y : Nat, (p : Int) < f.fmt.numPlanes → Wanted planes p → AvgValue (top f.fmt) (zero f.fmt p) sc
            (wsum (fun i => (smp al (fs (counts (on scenechange) weights.length fs i)) p x y : Int) - zero f.fmt p) 0 ws) (res p x y)) ∧
          Gives al C (c :: rest) n f.fmt f.width f.height f.props fun p x y => if Wanted planes p then (res p x y : Int) else smp al f p x y := by
  obtain ⟨process, ep, hpr⟩ := planes_ok "AverageFrames" hp
  obtain ⟨es, hsc1⟩ := getScale_int F (f := c.vi.format) ht hsc
  have vc := (hin.valid c List.mem_cons_self)
  have hC := create_steps F (planes := planes) (scale := scale) hin hk
  rw [getWeights_int F ht hws, Res.bind_ok, es, Res.bind_ok, getPlanes_eq, ep, Res.bind_ok, create_ok (info_frames vc.info (long_pos hin))] at hC
  refine ⟨_, hC, rfl, ?_⟩
  intro n hn fs hs f hf
  obtain ⟨va, ef, ew, eh⟩ := const_frame vc hin.const (at_mem hf)
  obtain ⟨hl, hw1⟩ := coeffs_facts F.toFloats hws
  have hb8 := small_depth (struct_of vc) hin.work ht
  have hb16 := hin.work.2.1 ht
  have hz := zero_bounds (f := f.fmt) (by rw [ef]; exact hb8) (by rw [ef]; exact hb16)
  have ht16 : top f.fmt ≤ 65535 := top_small (by rw [ef]; exact hin.work) (by rw [ef]; exact ht) vc ef.symm
  have hk0 : 0 < weights.length := by
    obtain ⟨k1, k2, _⟩ := hk
    by_cases h : (c :: rest).length = 1
    · have := k1 h; omega
    · have := (k2 h).1; rw [this, List.length_cons]; omega
  have hodd : on scenechange = true → weights.length % 2 = 1 := by
    intro h
    by_cases h1 : (c :: rest).length = 1
    · exact hk.1 h1
    · have := (hk.2.1 h1).2; rw [h] at this; cases this
  generalize hS : (⟨ws, weights.length, sc, fun a b k => F.avg k weights scale a b, on scenechange, process⟩ : Setup) = s
  have hpl := fun v => (plan_weights (s := s) (k := weights.length) (by rw [← hS]; exact hodd) (by rw [← hS]) (by rw [← hS]; exact hl) hk0 fs v).1
  have esc : (planFor s ((List.range' 0 weights.length).map fs)).scale = sc := by unfold planFor; rw [← hS]
  have hwb : wabs ws ≤ 31713 := by
    have := wabs_le hw1
    have := hk.2.2
    omega
  -- the value of a sample
  have hall := alike hin hf hs
  have hcell : ∀ p x y : Nat, ∃ r : Nat, avgInt F f.fmt p (planFor s ((List.range' 0 weights.length).map fs))
        ((List.range' 0 weights.length).map fun i => smp al (fs i) p x y) = .ok r ∧
      AvgValue (top f.fmt) (zero f.fmt p) sc
        (wsum (fun i => (smp al (fs (counts (on scenechange) weights.length fs i)) p x y : Int) - zero f.fmt p) 0 ws) r := by
    intro p x y
    have hV : ∀ i, i < weights.length → ((smp al (fs i) p x y : Int) - zero f.fmt p).natAbs ≤ 65535 := by
      intro i hi
      have h1 := smp_lt (al := al) (fs i) p x y
      rw [(hall i hi).2.1] at h1
      obtain ⟨kk, _, _, hko⟩ := pixKind_ok va.fmt (by rw [ef]; exact hin.work)
      have h2 := bps_small hko (by rw [ef]; exact ht)
      have := hz p
      omega
    obtain ⟨p1, p2, p3⟩ := hpl fun i => (smp al (fs i) p x y : Int) - zero f.fmt p
    have p2 : wabs (planFor s ((List.range' 0 weights.length).map fs)).weights ≤ wabs ws := by rw [← hS] at p2; rw [← hS]; exact p2
    have p3 : wsum (fun i => (smp al (fs i) p x y : Int) - zero f.fmt p) 0 (planFor s ((List.range' 0 weights.length).map fs)).weights =
        wsum (fun i => (smp al (fs (counts (on scenechange) weights.length fs i)) p x y : Int) - zero f.fmt p) 0 ws := by
      rw [← hS] at p3; rw [← hS]; exact p3
    unfold avgInt
    rw [esc]
    generalize (planFor s ((List.range' 0 weights.length).map fs)).weights = ws' at p1 p2 p3
    have hacc := accum_ok (bias := zero f.fmt p) (v := fun i => smp al (fs i) p x y) (V := 65535) ws' 0 0
      (fun j _ hj => hV j (by omega)) (by omega)
    rw [p1, p3, Int.zero_add] at hacc
    have hbd := wsum_abs (v := fun i => (smp al (fs i) p x y : Int) - zero f.fmt p) (V := 65535) ws' 0 (fun j _ hj => hV j (by omega))
    rw [p3] at hbd
    dsimp only
    rw [show (if (p = 1 ∨ p = 2) ∧ f.fmt.colorFamily = cfYUV then (2 : Int) ^ (f.fmt.bitsPerSample.toNat - 1) else 0) = zero f.fmt p from rfl,
      hacc, Res.bind_ok]
    exact avgOut_ok F ht16 (hz p).1 (hz p).2 (by omega) hsc1
  obtain ⟨res, hres⟩ := choice3 hcell
  refine ⟨res, fun p x y _ _ => (hres p x y).2, ?_⟩
  have hg := avg_gives F hal hin (planes := planes) (s := s) (by rw [← hS]; exact hpr) (by rw [← hS]; exact hk) hn
    (by rw [← hS]; exact hs) hf (G := res) (by
      intro kk hkk p x y _ _
      have : s.size = weights.length := by rw [← hS]
      rw [this]
      unfold avgCell
      rcases kind_word hkk (by rw [ef]; exact ht) with rfl | rfl
      · exact (hres p x y).1
      · exact (hres p x y).1)
  intro junk
  obtain ⟨g, h1, h2, h3, h4, h5, h6, h7⟩ := hg junk
  refine ⟨g, h1, h2, h3, h4, h5, h6, fun p x y hp hx hy => (h7 p x y hp hx hy).trans ?_⟩
  have := (hres p x y).2.1
  obtain ⟨kk, _, _, hko⟩ := pixKind_ok va.fmt (by rw [ef]; exact hin.work)
  have h8 := (int_kind hko (by rw [ef]; exact ht)).1
  dsimp only
  rw [Nat.mod_eq_of_lt (by omega)]

/-- C81: frames that look alike are not changed if the scale isn't given and the sum of the weights is positive. -/
theorem C81_flat {al : Nat} (hal : AlignOk al) {c : PClip} {rest : List PClip} (hin : Inputs al c rest) (ht : c.vi.format.sampleType = stInteger)
    {planes : List Int} (hp : PlanesOk planes) {weights : List Nat} {scenechange : Option Int}
    (hk : CountOk (c :: rest).length weights.length (on scenechange)) {ws : List Int} (hws : CoeffsAre F.toFloats weights ws) (hsum : 1 ≤ ws.sum) :
    ∃ C, averageCreate F al ((c :: rest).map (·.vi)) weights none scenechange planes = .ok C ∧
      ∀ n, n ≤ 2 ^ 31 - 2 → ∀ fs : Nat → Frm, (∀ i, i < weights.length → source (c :: rest) weights.length n i = some (fs i)) →
        ∀ f, at? c n = some f → InRange al f →
          (∀ i, i < weights.length → ∀ p x y : Nat, (p : Int) < f.fmt.numPlanes → x < f.w p → y < f.h p → smp al (fs i) p x y = smp al f p x y) →
          Gives al C (c :: rest) n f.fmt f.width f.height f.props fun p x y => smp al f p x y := by
  obtain ⟨C, e, _, h⟩ := C81_average F hal hin ht hp hk hws (scale := none) (sc := ws.sum) (Or.inl ⟨rfl, by omega⟩)
  refine ⟨C, e, ?_⟩
  intro n hn fs hs f hf hr hsame junk
  obtain ⟨res, h1, h2⟩ := h n hn fs hs f hf
  obtain ⟨g, g1, g2, g3, g4, g5, g6, g7⟩ := h2 junk
  refine ⟨g, g1, g2, g3, g4, g5, g6, fun p x y hpn hx hy => (g7 p x y hpn hx hy).trans ?_⟩
  have hx' : x < f.w p := by rw [← w_eq g3 g4]; exact hx
  have hy' : y < f.h p := by rw [← h_eq g3 g5]; exact hy
  dsimp only
  by_cases w : Wanted planes p
  · rw [if_pos w]
    have hv := (h1 p x y hpn w).2.2 ((smp al f p x y : Int) - zero f.fmt p)
    have hl := (coeffs_facts F.toFloats hws).1
    rw [hv]
    · have := hr p x y hpn hx' hy'
      unfold top
      omega
    · rw [wsum_congr (u := fun _ => (smp al f p x y : Int) - zero f.fmt p), wsum_const]
      intro j _ hj
      have hj' : counts (on scenechange) weights.length fs j < weights.length := by
        unfold counts
        split <;> omega
      rw [hsame _ hj' p x y hpn hx' hy']
  · rw [if_neg w]

/-- C81: float samples. The average is not specified further; it gets the samples of all frames in order, the weights as given and the
first and last frame of the scene. -/
theorem C81_float {al : Nat} (hal : AlignOk al) {c : PClip} {rest : List PClip} (hin : Inputs al c rest) (ht : c.vi.format.sampleType = stFloat)
    {planes : List Int} (hp : PlanesOk planes) {weights : List Nat} {scale : Option Nat} {scenechange : Option Int}
    (hk : CountOk (c :: rest).length weights.length (on scenechange)) (hws : ∀ b ∈ weights, ∃ q, F.value b = some q) (hsc : ScaleOk F scale) :
    ∃ C, averageCreate F al ((c :: rest).map (·.vi)) weights scale scenechange planes = .ok C ∧
      outInfo C (c :: rest) = some { c.vi with numFrames := longest (c :: rest) } ∧
      ∀ n, n ≤ 2 ^ 31 - 2 → ∀ fs : Nat → Frm, (∀ i, i < weights.length → source (c :: rest) weights.length n i = some (fs i)) →
        ∀ f, at? c n = some f → ∃ a b : Nat,
          (on scenechange = true → ∀ i, i < weights.length → (InScene weights.length fs i ↔ a ≤ i ∧ i ≤ b)) ∧
          (on scenechange = false → a = 0 ∧ b = weights.length) ∧
          Gives al C (c :: rest) n f.fmt f.width f.height f.props fun p x y => if Wanted planes p then
            ((F.avg (floatKind f.fmt) weights scale a b ((List.range weights.length).map fun i => smp al (fs i) p x y) % 256 ^ bps f.fmt : Nat) : Int)
            else smp al f p x y := by
  have hti : c.vi.format.sampleType ≠ stInteger := by rw [ht]; decide
  obtain ⟨process, ep, hpr⟩ := planes_ok "AverageFrames" hp
  have vc := hin.valid c List.mem_cons_self
  obtain ⟨s0, es⟩ : ∃ s0, getScale F c.vi.format scale (weights.map fun _ => 0) = .ok s0 := by
    unfold getScale
    cases scale with
    | none => exact ⟨_, rfl⟩
    | some b =>
      obtain ⟨q, e, hq⟩ := hsc b rfl
      dsimp only
      rw [e]
      dsimp only
      rw [if_neg hti, if_neg (Rat.not_lt.2 hq)]
      exact ⟨_, rfl⟩
  have hC := create_steps F (planes := planes) (scale := scale) hin hk
  rw [(getWeights_float F hti).1 hws, Res.bind_ok, es, Res.bind_ok, getPlanes_eq, ep, Res.bind_ok, create_ok (info_frames vc.info (long_pos hin))] at hC
  refine ⟨_, hC, rfl, ?_⟩
  intro n hn fs hs f hf
  obtain ⟨va, ef, ew, eh⟩ := const_frame vc hin.const (at_mem hf)
  have hk0 : 0 < weights.length := by
    obtain ⟨k1, k2, _⟩ := hk
    by_cases h : (c :: rest).length = 1
    · have := k1 h; omega
    · have := (k2 h).1; rw [this, List.length_cons]; omega
  have hodd : on scenechange = true → weights.length % 2 = 1 := by
    intro h
    by_cases h1 : (c :: rest).length = 1
    · exact hk.1 h1
    · have := (hk.2.1 h1).2; rw [h] at this; cases this
  generalize hS : (⟨weights.map fun _ => 0, weights.length, s0, fun a b k => F.avg k weights scale a b, on scenechange, process⟩ : Setup) = s
  obtain ⟨a, b, p1, p2, p3⟩ := (plan_weights (s := s) (k := weights.length) (by rw [← hS]; exact hodd) (by rw [← hS])
    (by rw [← hS]; simp) hk0 fs (fun _ => 0)).2
  refine ⟨a, b, by rw [← hS] at p2; exact p2, by rw [← hS] at p3; exact p3, ?_⟩
  refine avg_gives F hal hin (planes := planes) (s := s) (by rw [← hS]; exact hpr) (by rw [← hS]; exact hk) hn
    (by rw [← hS]; exact hs) hf ?_
  intro kk hkk p x y _ _
  have : s.size = weights.length := by rw [← hS]
  rw [this]
  have hfl : s.floats a b = fun k => F.avg k weights scale a b := by rw [← hS]
  obtain ⟨ek, hk2⟩ := float_kind hkk (by rw [ef]; exact ht)
  unfold avgCell
  rw [List.range_eq_range', ← ek]
  rcases hk2 with rfl | rfl <;> · dsimp only; rw [p1, hfl]

/-- C81: numbers of clips and weights that do not fit, formats other than 8 to 16 bit integer and 16 or 32 bit float, variable formats and sizes,
clips that differ, weights and scales that are not allowed and wrong planes are refused. -/
theorem C81_refused {al : Nat} {c : PClip} {rest : List PClip} (hv : ∀ d ∈ c :: rest, ValidClip al d) {planes : List Int} {weights : List Nat}
    {scale : Option Nat} {scenechange : Option Int}
    (h : ¬ CountOk (c :: rest).length weights.length (on scenechange) ∨ ¬ Workable c.vi.format ∨ ¬ Constant c.vi ∨ (∃ d ∈ rest, ¬ Fit c.vi d.vi) ∨
      (c.vi.format.sampleType = stInteger ∧ ∀ ws sc, CoeffsAre F.toFloats weights ws → ¬ ScaleIs F scale ws sc) ∨
      (c.vi.format.sampleType = stFloat ∧ ((∃ b ∈ weights, ∀ q, F.value b ≠ some q) ∨ ¬ ScaleOk F scale)) ∨ ¬ PlanesOk planes) :
    ∃ m, averageCreate F al ((c :: rest).map (·.vi)) weights scale scenechange planes = .err m := by
  have vc := hv c List.mem_cons_self
  by_cases hk : ¬ CountOk (c :: rest).length weights.length (on scenechange)
  · unfold averageCreate
    rw [List.length_map]
    dsimp only
    cases e : countError (c :: rest).length weights.length (decide (scenechange.getD 0 ≠ 0)) with
    | none => exact absurd ((count_ok (by simp)).1 e) hk
    | some m => exact ⟨m, rfl⟩
  have hk := Classical.not_not.1 hk
  have hk' : countError (c :: rest).length weights.length (decide (scenechange.getD 0 ≠ 0)) = none := (count_ok (by simp)).2 hk
  by_cases hw : ¬ Workable c.vi.format
  · unfold averageCreate
    rw [List.length_map]
    dsimp only
    rw [hk']
    dsimp only
    rw [List.map_cons]
    dsimp only
    rw [not_workable hw]
    exact ⟨_, rfl⟩
  have hw := Classical.not_not.1 hw
  by_cases hc : ¬ Constant c.vi
  · unfold averageCreate
    rw [List.length_map]
    dsimp only
    rw [hk']
    dsimp only
    rw [List.map_cons]
    dsimp only
    rw [(workable_iff _).2 hw, if_neg (by decide), if_pos]
    · exact ⟨_, rfl⟩
    · have := (info_iff _).1 vc.info
      by_cases h1 : c.vi.width = 0
      · exact Or.inl h1
      · by_cases h2 : c.vi.height = 0
        · exact Or.inr h2
        · exact absurd ⟨by omega, by omega, hw.1⟩ hc
  have hc := Classical.not_not.1 hc
  by_cases hf : ∀ d ∈ rest, Fit c.vi d.vi
  case neg =>
    unfold averageCreate
    rw [List.length_map]
    dsimp only
    rw [hk']
    dsimp only
    rw [List.map_cons]
    dsimp only
    rw [(workable_iff _).2 hw, if_neg (by decide), if_neg (by have := hc.1; have := hc.2.1; omega)]
    obtain ⟨m, e⟩ := sameInfos_bad (rest := rest) c.vi (fun hall => hf fun d hd => (fit_iff vc (hv d (List.mem_cons_of_mem _ hd)) hc).1 (hall d hd))
    rw [e]
    exact ⟨m, rfl⟩
  have hin : Inputs al c rest := ⟨hv, hw, hc, hf⟩
  rw [create_steps F hin hk]
  by_cases ht : c.vi.format.sampleType = stInteger
  · rcases getWeights_inv F (weights := weights) ht with ⟨m, e⟩ | ⟨ws, e, hws⟩
    · rw [e]; exact ⟨m, rfl⟩
    rw [e, Res.bind_ok]
    rcases getScale_inv F ht scale ws with ⟨m, e⟩ | ⟨sc, hsc⟩
    · rw [e]; exact ⟨m, rfl⟩
    rw [(getScale_int F ht hsc).1, Res.bind_ok]
    rcases h with h | h | h | ⟨d, hd, h⟩ | h | h | h
    · exact absurd hk h
    · exact absurd hw h
    · exact absurd hc h
    · exact absurd (hf d hd) h
    · exact absurd hsc (h.2 ws sc hws)
    · have := ht.symm.trans h.1
      exact absurd this (by decide)
    · obtain ⟨m, e⟩ := planes_bad "AverageFrames" h
      rw [getPlanes_eq, e]
      exact ⟨m, rfl⟩
  · by_cases hws : ∀ b ∈ weights, ∃ q, F.value b = some q
    case neg =>
      obtain ⟨m, e⟩ := (getWeights_float F ht).2 hws
      rw [e]
      exact ⟨m, rfl⟩
    rw [(getWeights_float F ht).1 hws, Res.bind_ok]
    unfold getScale
    cases scale with
    | none =>
      dsimp only
      rw [Res.bind_ok]
      rcases h with h | h | h | ⟨d, hd, h⟩ | h | ⟨_, ⟨b, hb, h⟩ | h⟩ | h
      · exact absurd hk h
      · exact absurd hw h
      · exact absurd hc h
      · exact absurd (hf d hd) h
      · exact absurd h.1 ht
      · obtain ⟨q, e⟩ := hws b hb
        exact absurd e (h q)
      · exact absurd (fun b hb => by cases hb) h
      · obtain ⟨m, e⟩ := planes_bad "AverageFrames" h
        rw [getPlanes_eq, e]
        exact ⟨m, rfl⟩
    | some b =>
      dsimp only
      cases e : single F.toFloats b with
      | none => exact ⟨_, rfl⟩
      | some q =>
        dsimp only
        rw [if_neg ht]
        by_cases hq : q < 1 / 2 ^ 23
        · rw [if_pos hq]; exact ⟨_, rfl⟩
        rw [if_neg hq, Res.bind_ok]
        rcases h with h | h | h | ⟨d, hd, h⟩ | h | ⟨_, ⟨b, hb, h⟩ | h⟩ | h
        · exact absurd hk h
        · exact absurd hw h
        · exact absurd hc h
        · exact absurd (hf d hd) h
        · exact absurd h.1 ht
        · obtain ⟨q, e⟩ := hws b hb
          exact absurd e (h q)
        · refine absurd ?_ h
          intro b' hb'
          cases hb'
          exact ⟨q, e, Rat.not_lt.1 hq⟩
        · obtain ⟨m, e⟩ := planes_bad "AverageFrames" h
          rw [getPlanes_eq, e]
          exact ⟨m, rfl⟩

/-! ## Examples -/

/-- The arithmetic of the examples. -/
def exA : AFloats := { exFloats with avg := fun _ _ _ _ _ _ => 0 }

theorem ex_inputs : Inputs 32 (clip1 gray8 4 4 dot Dict.empty) [clip1 gray8 4 4 (fun _ _ => 11) Dict.empty] := by
  refine ⟨?_, gray8_work, ⟨by decide, by decide, by decide⟩, ?_⟩
  · intro d hd
    rcases List.mem_cons.1 hd with rfl | hd
    · exact clip1_valid gray8_44 _ _
    · rw [List.mem_singleton.1 hd]
      exact clip1_valid gray8_44 _ _
  · intro d hd
    rw [List.mem_singleton.1 hd]
    exact ⟨rfl, rfl, rfl⟩

theorem ex_weights : CoeffsAre exA.toFloats [1002, 1006] [1, 3] := by
  have rself : ∀ z : Int, RoundsTo z z := by
    intro z
    unfold RoundsTo
    rw [Rat.sub_self, rabs_zero]
    exact ⟨by grind, fun h => by grind⟩
  refine ⟨⟨1, ?_, rself 1, by decide, by decide⟩, ⟨3, ?_, rself 3, by decide, by decide⟩, trivial⟩
  · show exFloats.value 1002 = some 1
    decide +kernel
  · show exFloats.value 1006 = some 3
    decide +kernel

/-- C81 applies: two clips with the weights 1 and 3. -/
example : ∃ C, averageCreate exA 32 [(clip1 gray8 4 4 dot Dict.empty).vi, (clip1 gray8 4 4 (fun _ _ => 11) Dict.empty).vi] [1002, 1006] none none []
    = .ok C := by
  obtain ⟨C, e, _⟩ := C81_average exA (Or.inl rfl) ex_inputs rfl (planes := []) (by decide) (scenechange := none)
    ⟨by decide, fun _ => ⟨rfl, rfl⟩, by decide⟩ ex_weights (scale := none) (Or.inl ⟨rfl, rfl⟩)
  exact ⟨C, e⟩

/-- C81: the average of 7 and 11 with these weights is 10. -/
example (res : Nat) (h : AvgValue 255 0 4 (wsum (fun i => ([7, 11].getD i 0 : Int) - 0) 0 [1, 3]) res) : res = 10 := by
  have := h.2.2 10 (by decide)
  omega

/-- C81: an even number of weights is refused for one clip. -/
example : ∃ m, averageCreate exA 32 [(clip1 gray8 4 4 dot Dict.empty).vi] [1002, 1006] none none [] = .err m :=
  C81_refused exA (rest := []) (by
    intro d hd
    rw [List.mem_singleton.1 hd]
    exact clip1_valid gray8_44 _ _) (Or.inl fun h => by have := h.1 rfl; revert this; decide)

/-! ## A defect -/

/-- An arithmetic whose numbers are 2^31 and 2^32. -/
def hugeA : AFloats := { exA with value := fun b => if b = 0 then some ((2 : Rat) ^ 31) else if b = 1 then some ((2 : Rat) ^ 32) else some 1 }

/-- C81 fails: larger scales than 2^31 are accepted, but 2^31 is refused as one that is not positive. -/
theorem C81_scale_refuted : ∃ (F : AFloats) (vi : VInfo), F.value 0 = some ((2 : Rat) ^ 31) ∧ F.value 1 = some ((2 : Rat) ^ 32) ∧
    (∃ C, averageCreate F 32 [vi] [2] (some 1) none [] = .ok C) ∧
    averageCreate F 32 [vi] [2] (some 0) none [] = .err "AverageFrames: scale must be a positive number" := by
  have hin : Inputs 32 (clip1 gray8 4 4 dot Dict.empty) [] := by
    refine ⟨?_, gray8_work, ⟨by decide, by decide, by decide⟩, fun d hd => by cases hd⟩
    intro d hd
    rw [List.mem_singleton.1 hd]
    exact clip1_valid gray8_44 _ _
  have hk : CountOk [clip1 gray8 4 4 dot Dict.empty].length [2].length (on none) := ⟨fun _ => rfl, fun h => absurd rfl h, by decide⟩
  have hw : CoeffsAre hugeA.toFloats [2] [1] := by
    refine ⟨⟨1, rfl, ?_, by decide, by decide⟩, trivial⟩
    unfold RoundsTo
    have e : ((1 : Int) : Rat) = 1 := rfl
    rw [e, Rat.sub_self, rabs_zero]
    exact ⟨by grind, fun h => by grind⟩
  refine ⟨hugeA, (clip1 gray8 4 4 dot Dict.empty).vi, rfl, rfl, ?_, ?_⟩
  · obtain ⟨C, e, _⟩ := C81_average hugeA (Or.inl rfl) hin rfl (planes := []) (by decide) hk hw (scale := some 1) (sc := 2 ^ 31 - 1)
      (Or.inr ⟨1, 2 ^ 32, rfl, by decide +kernel, by decide, by decide, Or.inr ⟨by decide, rfl⟩⟩)
    exact ⟨C, e⟩
  · have := create_steps hugeA (planes := []) (scale := some 0) hin hk
    refine this.trans ?_
    rw [getWeights_int hugeA (f := (clip1 gray8 4 4 dot Dict.empty).vi.format) rfl hw, Res.bind_ok]
    have : getScale hugeA (clip1 gray8 4 4 dot Dict.empty).vi.format (some 0) [1] = .err "AverageFrames: scale must be a positive number" := by
      have e : single hugeA.toFloats 0 = some ((2 : Rat) ^ 31) := by decide +kernel
      unfold getScale
      dsimp only
      rw [e]
      dsimp only
      rw [if_pos (show (clip1 gray8 4 4 dot Dict.empty).vi.format.sampleType = stInteger from rfl), if_pos (by decide +kernel)]
    rw [this]
    rfl

end VS.Average

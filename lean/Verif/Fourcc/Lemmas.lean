import Verif.Fourcc.Spec
import Verif.Video.Lemmas

/-!
# Helper lemmas
-/

namespace VS.Fourcc
open VS VS.Format VS.Wave VS.Video

theorem blt_nat (src : List Nat) (ss row ds : Nat) : ∀ (n s d : Nat) (dst : List Nat),
    blt src ss row (ds : Int) n s (d : Int) dst = bitbltLoop src ss ds row n s d dst
  | 0, _, _, _ => rfl
  | n + 1, s, d, dst => by
    show (load src s row >>= fun l => (if (d : Int) < 0 then Res.ub else store dst (d : Int).toNat l) >>= fun dst =>
      blt src ss row ds n (s + ss) ((d : Int) + ds) dst) = (load src s row >>= fun l => store dst d l >>= fun dst =>
        bitbltLoop src ss ds row n (s + ss) (d + ds) dst)
    congr 1
    funext l
    rw [if_neg (by omega), Int.toNat_natCast]
    congr 1
    funext b
    rw [← blt_nat src ss row ds n (s + ss) (d + ds) b]
    rfl

theorem copy_plane {bytes : Nat} {p : Plane} (h : PlaneOk bytes p) (pre rest : List Nat)
    (hb : p.height * (p.width * bytes) ≤ rest.length) :
    bitbltAt (pre ++ rest) (pre.length : Int) ((p.width * bytes : Nat) : Int) p.mem p.stride (p.width * bytes) p.height =
      .ok (pre ++ image bytes p ++ rest.drop (p.height * (p.width * bytes))) := by
  have hm := h.mem
  have hs := h.stride
  have hil := image_length h
  unfold bitbltAt
  by_cases hz : p.height = 0
  · rw [if_neg (by simpa using hz)]
    rw [hz, Nat.zero_mul] at hil
    rw [hz, Nat.zero_mul, List.eq_nil_of_length_eq_zero hil]
    simp
  · rw [if_pos hz]
    split
    · next he =>
      have he : p.stride = p.width * bytes := he.2
      have hi : image bytes p = (p.mem.drop 0).take (p.width * bytes * p.height) := by
        rw [image_rows, he, rowsFrom_dense _ (by rw [Nat.mul_comm, ← he]; exact hm), List.drop_zero]
      have hl : load p.mem 0 (p.width * bytes * p.height) = .ok (image bytes p) := by
        unfold load
        rw [if_pos (by rw [← he]; omega), hi]
      rw [hl, Res.bind_ok, if_neg (by omega), Int.toNat_natCast, store_append pre rest _ (by rw [hil]; exact hb), hil]
    · rw [blt_nat]
      have := bitbltLoop_eq (src := p.mem) hs p.height 0 pre rest (by rw [Nat.zero_add, Nat.mul_comm]; exact hm) hb
      rw [Nat.zero_mul] at this
      rw [this, image_rows]

theorem find_mem {f : VFmt} {alt : Int} {t : Traits} (h : findTraits f alt = some t) :
    t ∈ table ∧ t.colorFamily = f.colorFamily ∧ t.sampleType = f.sampleType ∧ t.bits = f.bitsPerSample ∧
      t.subW = f.subSamplingW ∧ t.subH = f.subSamplingH ∧ t.alt = alt := by
  unfold findTraits at h
  refine ⟨List.mem_of_find?_eq_some h, ?_⟩
  have := List.find?_some h
  simp only [Bool.and_eq_true, beq_iff_eq] at this
  obtain ⟨⟨⟨⟨⟨a, b⟩, c⟩, d⟩, e⟩, g⟩ := this
  exact ⟨a, b, c, d, e, g⟩

theorem table_code : ∀ t ∈ table, some (le 4 (fcc t.name)) = code t.name := by decide

theorem code_some {f : VFmt} {alt : Int} {t : Traits} (h : findTraits f alt = some t) : codeOf f alt = code t.name := by
  unfold codeOf getFourCC
  rw [h]
  exact table_code t (find_mem h).1

theorem code_none {f : VFmt} {alt : Int} (h : findTraits f alt = none) : codeOf f alt = none := by
  unfold codeOf getFourCC
  rw [h]
  rfl

/-- Planar formats of the core have no alignment and are not turned; U is in front of V for two codes. -/
theorem table_planar : ∀ t ∈ table, 0 < t.colorFamily → t.packing = .planar →
    t.alignment = 1 ∧ t.upsideDown = false ∧ (t.swapUV = true ↔ (code t.name = code "I420" ∨ code t.name = code "IYUV")) := by
  decide

instance (c : Option (List Nat)) : Decidable (TwoPlanes c) := inferInstanceAs (Decidable (_ ∨ _))

theorem table_nv : ∀ t ∈ table, (t.nv = true ↔ TwoPlanes (code t.name)) := by decide

theorem table_two : ∀ t ∈ table, t.nv = true →
    t.alignment = 1 ∧ t.upsideDown = false ∧ t.swapUV = false ∧ t.packing ≠ .planar ∧ t.subW = 1 ∧ 8 < t.bits ∧ t.bits ≤ 16 ∧
      t.colorFamily = cfYUV ∧ t.packing = packingOf (code t.name) t.bits := by
  decide

theorem table_single : ∀ t ∈ table, t.nv = false → t.packing ≠ .planar →
    t.swapUV = false ∧ (t.upsideDown = true ↔ code t.name = code "DIB ") ∧ t.packing = packingOf (code t.name) t.bits ∧
    ((code t.name = code "DIB " ∧ t.num = 4 ∧ t.den = 1 ∧ t.alignment = 1) ∨ (code t.name = code "r210" ∧ t.num = 4 ∧ t.den = 1 ∧ t.alignment = 256) ∨
     (code t.name = code "b64a" ∧ t.num = 8 ∧ t.den = 1 ∧ t.alignment = 1) ∨ (code t.name = code "YUY2" ∧ t.num = 2 ∧ t.den = 1 ∧ t.alignment = 1) ∨
     (code t.name = code "UYVY" ∧ t.num = 2 ∧ t.den = 1 ∧ t.alignment = 1) ∨ (code t.name = code "v210" ∧ t.num = 16 ∧ t.den = 6 ∧ t.alignment = 128) ∨
     (code t.name = code "Y410" ∧ t.num = 4 ∧ t.den = 1 ∧ t.alignment = 1) ∨ (code t.name = code "Y416" ∧ t.num = 8 ∧ t.den = 1 ∧ t.alignment = 1)) := by
  decide

theorem shr_nat (x s : Nat) : shr (x : Int) (s : Int) = ((x / 2 ^ s : Nat) : Int) := by
  unfold shr
  rw [Int.toNat_natCast]
  norm_cast

theorem i32_nat {n : Nat} (h : n ≤ 2147483647) : i32 (n : Int) = .ok (n : Int) :=
  i32_ok (by unfold InI32 INT_MIN INT_MAX; omega)

theorem row_planar {w b : Nat} {t : Option Traits} (ha : alignmentOf t = 1) (h : w * b ≤ 2147483647) :
    rowSizePlanar (w : Int) (b : Int) t = .ok ((w * b : Nat) : Int) := by
  unfold rowSizePlanar
  rw [← Int.natCast_mul, i32_nat h, Res.bind_ok, ha]
  unfold rowSizeAligned
  rw [Int.tmod_one, if_neg (by simp)]

theorem aligned_nat {x a : Nat} (h : x + a ≤ 2147483647) (ha : 0 < a) :
    rowSizeAligned (x : Int) (a : Int) = .ok ((a * ((x + (a - 1)) / a) : Nat) : Int) := by
  unfold rowSizeAligned
  have hm : (x : Int).tmod a = ((x % a : Nat) : Int) := by
    rw [Int.tmod_eq_emod_of_nonneg (by omega)]
    norm_cast
  have hlt := Nat.mod_lt x ha
  have hdm := Nat.div_add_mod x a
  rw [hm]
  split
  · next hne =>
    have hq : (x + (a - 1)) / a = x / a + 1 := by
      apply Nat.div_eq_of_lt_le
      · rw [Nat.add_mul, Nat.one_mul, Nat.mul_comm]
        omega
      · rw [Nat.add_mul, Nat.add_mul, Nat.one_mul, Nat.mul_comm]
        omega
    have e : (x : Int) + ((a : Int) - ((x % a : Nat) : Int)) = ((a * (x / a + 1) : Nat) : Int) := by
      have : x + (a - x % a) = a * (x / a + 1) := by rw [Nat.mul_add, Nat.mul_one]; omega
      omega
    rw [e, hq, i32_nat (by rw [Nat.mul_add, Nat.mul_one]; omega)]
  · next he =>
    have hq : (x + (a - 1)) / a = x / a := by
      apply Nat.div_eq_of_lt_le
      · rw [Nat.mul_comm]
        omega
      · rw [Nat.add_mul, Nat.one_mul, Nat.mul_comm]
        omega
    have : a * (x / a) = x := by omega
    rw [hq, this]

theorem row_interleaved {t : Traits} (ht : t ∈ table) (h1 : t.nv = false) (h2 : t.packing ≠ .planar) {w : Nat} (hw : w < 2 ^ 27) :
    rowSizeInterleaved (w : Int) t = .ok ((lineBytes (code t.name) w : Nat) : Int) := by
  obtain ⟨_, _, _, h⟩ := table_single t ht h1 h2
  have key : ∀ n d a : Nat, t.num = n → t.den = d → t.alignment = a → 0 < d → 0 < a → a ≤ 256 → n ≤ 16 → d ≤ 6 → (w * n + (d - 1)) / d + a ≤ 2147483647 →
      rowSizeInterleaved (w : Int) t = .ok ((a * (((w * n + (d - 1)) / d + (a - 1)) / a) : Nat) : Int) := by
    intro n d a hn hd ha hd0 ha0 hal hnl hdl hle
    have hwn : w * n ≤ 2 ^ 27 * 16 := Nat.mul_le_mul (by omega) hnl
    unfold rowSizeInterleaved
    have e : ((w : Int) * t.num + (t.den - 1)) % 2 ^ 32 / t.den = (((w * n + (d - 1)) / d : Nat) : Int) := by
      rw [hn, hd]
      have : (w : Int) * (n : Int) + ((d : Int) - 1) = ((w * n + (d - 1) : Nat) : Int) := by
        rw [← Int.natCast_mul]
        omega
      rw [this, Int.emod_eq_of_lt (by omega) (by omega)]
      norm_cast
    rw [e, ha]
    have : toSigned (((w * n + (d - 1)) / d : Nat) : Int) = (((w * n + (d - 1)) / d : Nat) : Int) := by
      unfold toSigned
      rw [if_pos (by omega)]
    rw [this, aligned_nat hle ha0]
  rcases h with ⟨hn, a, b, c⟩ | ⟨hn, a, b, c⟩ | ⟨hn, a, b, c⟩ | ⟨hn, a, b, c⟩ | ⟨hn, a, b, c⟩ | ⟨hn, a, b, c⟩ | ⟨hn, a, b, c⟩ | ⟨hn, a, b, c⟩
  · rw [key 4 1 1 a b c (by omega) (by omega) (by omega) (by omega) (by omega) (by omega), hn]; simp [lineBytes, code]; omega
  · rw [key 4 1 256 a b c (by omega) (by omega) (by omega) (by omega) (by omega) (by omega), hn]; simp [lineBytes, code]; omega
  · rw [key 8 1 1 a b c (by omega) (by omega) (by omega) (by omega) (by omega) (by omega), hn]; simp [lineBytes, code]; omega
  · rw [key 2 1 1 a b c (by omega) (by omega) (by omega) (by omega) (by omega) (by omega), hn]; simp [lineBytes, code]; omega
  · rw [key 2 1 1 a b c (by omega) (by omega) (by omega) (by omega) (by omega) (by omega), hn]; simp [lineBytes, code]; omega
  · rw [key 16 6 128 a b c (by omega) (by omega) (by omega) (by omega) (by omega) (by omega), hn]; simp [lineBytes, code]; omega
  · rw [key 4 1 1 a b c (by omega) (by omega) (by omega) (by omega) (by omega) (by omega), hn]; simp [lineBytes, code]; omega
  · rw [key 8 1 1 a b c (by omega) (by omega) (by omega) (by omega) (by omega) (by omega), hn]; simp [lineBytes, code]; omega

end VS.Fourcc

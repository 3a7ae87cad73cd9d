import Verif.Json.LemmasFile

/-!
# C40: vspipe's JSON output
-/

namespace VS.Json
open VS VS.Map

/-- C40: every string is written as a JSON string that decodes to it, if it is valid UTF-8. -/
theorem C40_string (s : List Nat) (h : IsUtf8 s) : parse (escapeString s) = some (.str s) := by
  have := reads_parse (reads_str h) [] (.inl rfl) (by simp)
  simpa using this

example : IsUtf8 (keyBytes "a\"\\\n\u0001é日𝄞") ∧
    escapeString (keyBytes "a\"\n\u0001é") = asc "\"a\\\"\\n\\u0001" ++ [195, 169, 34] :=
  ⟨keyBytes_utf8 _, by decide +kernel⟩

/-- C40: the text written for an integer is that number. -/
theorem C40_integer (i : Int) : parse (decimal i) = some (.num ⟨decide (i < 0), i.natAbs, [], none⟩) := by
  have h := reads_num (neg := decide (i < 0)) (dec_Digits i.natAbs)
  rw [digits_dec, ← decimal_text] at h
  have := reads_parse h [] (.inl rfl) (by simp)
  simpa using this

/-- C40, as far as it holds: for a property map reached by any history of calls, if every value has a JSON counterpart
(`Plain`), the text is a JSON object with exactly the map's keys and values.  Missing: the maps that are not `Plain`,
see below. -/
theorem C40_map_partial (fixed : Nat → List Nat) (ops : List Op) (w : World) (s : Spec.State) (m : Nat) (d : Spec.Dict)
    (h : Leads ops w s) (hm : s[m]? = some (some d)) (hp : Plain fixed d) :
    ∃ t v, convertMap fixed w m = .ok t ∧ parse t = some v ∧ Describes fixed d v := by
  obtain ⟨t, v, h1, h2, -, h4⟩ := convert_good h hm hp
  refine ⟨t, v, h1, ?_, h4⟩
  have := reads_parse h2 [] (.inl rfl) (by simp)
  simpa using this

/-- C40, as far as it holds: the file for a video clip whose frames have such properties is one JSON array with an
object for each frame, in order. -/
theorem C40_file_partial (fixed : Nat → List Nat) (ops : List Op) (w : World) (s : Spec.State) (ms : List Nat)
    (h : Leads ops w s) (hms : ∀ m ∈ ms, ∃ d, s[m]? = some (some d) ∧ Plain fixed d) :
    ∃ t vs, writeFile fixed w true ms = .ok t ∧ parse t = some (.arr vs) ∧ vs.length = ms.length ∧
      ∀ (i m : Nat) (v : Json), ms[i]? = some m → vs[i]? = some v → ∃ d, s[m]? = some (some d) ∧ Describes fixed d v := by
  obtain ⟨q, h1, h2, h3, h4, h5⟩ := convertMaps_good h ms hms
  refine ⟨fileText true (q.map (·.1)), q.map (·.2), ?_, file_read q h2 h3, by simpa using h4, h5⟩
  unfold writeFile
  rw [h1, Res.bind_ok]

/-- Two frames with properties of all kinds. -/
def sampleOps : List Op :=
  [.create, .setInt 0 "n" (-12) 0, .setFloat 0 "f" 7 0, .setFloat 0 "f" 8 1, .setData 0 "s" [104, 34, 195, 169] 4 1 0,
    .setData 0 "u" [104, 105] 2 (-1) 0, .setData 0 "b" [0, 1, 2] 3 0 0, .setEmpty 0 "e" 1, .create, .setInt 1 "_Range" 1 0]

/-- Sample texts of doubles. -/
def sampleFixed (b : Nat) : List Nat := if b = 7 then asc "-0.25" else asc "1024"

theorem plain_empty (fixed : Nat → List Nat) : Plain fixed Spec.Dict.empty :=
  ⟨rfl, rfl, fun _ _ _ h => nomatch h⟩

theorem plain_put {fixed : Nat → List Nat} {d : Spec.Dict} (h : Plain fixed d) (k : Key) (hk : k ≠ "_ColorRange") (ty : PType)
    {vs : List Val} {j : Json} (hj : Shows fixed vs j) : Plain fixed (d.put k (some (ty, vs))) := by
  refine ⟨h.err, ?_, ?_⟩
  · show (if "_ColorRange" = k then _ else _) = _
    rw [if_neg (Ne.symm hk)]; exact h.range
  · intro k' ty' vs' hg
    have hg : (if k' = k then some (ty, vs) else d.get k') = some (ty', vs') := hg
    by_cases e : k' = k
    · rw [if_pos e] at hg
      injection hg with hg
      injection hg with _ hg
      subst hg
      exact ⟨j, hj⟩
    · rw [if_neg e] at hg
      exact h.values k' ty' vs' hg

theorem sample_plain : ∃ w s, Leads sampleOps w s ∧ ∀ m ∈ [0, 1, 0], ∃ d, s[m]? = some (some d) ∧ Plain sampleFixed d := by
  refine ⟨_, _, ⟨_, rfl, rfl⟩, ?_⟩
  intro m hm
  have : m = 0 ∨ m = 1 := by simp at hm; omega
  rcases this with rfl | rfl
  · let d0 := (Spec.Dict.empty.put "n" (some (.int, [.int (-12)]))).put "f" (some (.float, [.float 7]))
    let d1 := (d0.put "f" (some (.float, [.float 7, .float 8]))).put "s" (some (.data, [.data 1 [104, 34, 195, 169]]))
    let d2 := (d1.put "u" (some (.data, [.data (-1) [104, 105]]))).put "b" (some (.data, [.data 0 [0, 1, 2]]))
    refine ⟨d2.put "e" (some (.int, [])), rfl, ?_⟩
    have m7 : Means sampleFixed (.float 7) (.num ⟨true, 0, [50, 53], none⟩) :=
      .float _ true [48] [50, 53] ⟨by decide, by decide, by decide, by decide⟩ (by decide) (by decide)
    have m8 : Means sampleFixed (.float 8) (.num ⟨false, 1024, [], none⟩) :=
      .float _ false (asc "1024") [] ⟨by decide, by decide, by decide, by decide⟩ (by decide) (by decide)
    have p0 : Plain sampleFixed d0 := plain_put (plain_put (plain_empty _) _ (by decide) _ (.one _ _ (.int _))) _ (by decide) _ (.one _ _ m7)
    have p1 : Plain sampleFixed d1 := by
      refine plain_put (plain_put p0 _ (by decide) _ (.many _ [.num ⟨true, 0, [50, 53], none⟩, .num ⟨false, 1024, [], none⟩] (by decide) rfl ?_)) _ (by decide) _
        (.one _ _ (.text _ ⟨['h', '"', 'é'], by decide⟩ (by decide)))
      · intro i v j h1 h2
        match i with
        | 0 =>
          injection h1 with h1; injection h2 with h2; subst h1 h2
          exact m7
        | 1 =>
          injection h1 with h1; injection h2 with h2; subst h1 h2
          exact m8
        | i + 2 => simp at h1
    have p2 : Plain sampleFixed d2 := plain_put (plain_put p1 _ (by decide) _ (.one _ _ (.plain _ (by unfold Ascii; decide) (by decide)))) _
      (by decide) _ (.one _ _ (.binary _ _ (by decide) (by unfold Ascii; decide)))
    exact plain_put p2 _ (by decide) _ .none
  · exact ⟨Spec.Dict.empty.put "_Range" (some (.int, [.int 1])), rfl, plain_put (plain_empty _) _ (by decide) _ (.one _ _ (.int _))⟩

example : ∃ w os, run World.empty sampleOps = .ok (w, os) ∧
    writeFile sampleFixed w true [0, 1] = .ok (asc "[\n\t{\"b\": \"[binary data size: 3]\", \"e\": null, \"f\": [-0.25, 1024], \"n\": -12, \"s\": \"h\\\"" ++
      [195, 169] ++ asc "\", \"u\": \"hi\"},\n\t{\"_Range\": 1}\n]\n") := ⟨_, _, rfl, by decide +kernel⟩

/-! ## Where it fails -/

/-- C40 fails for references: a key with one function (or node or frame) is written with no value at all. -/
theorem C40_reference_refuted (fixed : Nat → List Nat) :
    ∃ w os t, run World.empty [.create, .setFunction 0 "f" (some 0) 0] = .ok (w, os) ∧
      convertMap fixed w 0 = .ok t ∧ t = asc "{\"f\": }" ∧ parse t = none :=
  ⟨_, _, _, rfl, rfl, rfl, rfl⟩

/-- C40 fails for the alias: a number stored under `_ColorRange` that is not an integer is written with no value. -/
theorem C40_range_refuted (fixed : Nat → List Nat) :
    ∃ w os t, run World.empty [.create, .setFloat 0 "_ColorRange" 9 0] = .ok (w, os) ∧
      convertMap fixed w 0 = .ok t ∧ t = asc "{\"_ColorRange\": }" ∧ parse t = none :=
  ⟨_, _, _, rfl, rfl, rfl, rfl⟩

/-- C40 fails for text with a zero in it: the rest is dropped. -/
theorem C40_zero_refuted (fixed : Nat → List Nat) :
    ∃ w os t, run World.empty [.create, .setData 0 "s" [97, 0, 98] 3 1 0] = .ok (w, os) ∧
      convertMap fixed w 0 = .ok t ∧ parse t = some (.obj [([115], .str [97])]) :=
  ⟨_, _, _, rfl, rfl, rfl⟩

/-- C40 fails for text that is not UTF-8: it is not checked, and the output is not a JSON text. -/
theorem C40_invalid_utf8_refuted (fixed : Nat → List Nat) :
    ∃ w os t, run World.empty [.create, .setData 0 "s" [255] 1 1 0] = .ok (w, os) ∧
      convertMap fixed w 0 = .ok t ∧ parse t = none :=
  ⟨_, _, _, rfl, rfl, rfl⟩

/-- The text of a map with one double. -/
theorem one_float (fixed : Nat → List Nat) (bits : Nat) :
    ∃ w os, run World.empty [.create, .setFloat 0 "f" bits 0] = .ok (w, os) ∧
      convertMap fixed w 0 = (do let t ← doubleToString fixed bits; .ok (asc "{\"f\": " ++ t ++ asc "}")) := by
  have hw : ∃ w os, run World.empty [.create, .setFloat 0 "f" bits 0] = .ok (w, os) ∧ mapNumKeys w 0 = .ok 1 ∧
      mapGetKey w 0 (0 : Nat) = .ok (some "f") ∧ mapNumElements w 0 "f" = .ok 1 ∧ mapGetType w 0 "f" = .ok .float ∧
      mapGetFloat w 0 "f" (0 : Nat) false = .ok (bits, 0) := ⟨_, _, rfl, rfl, rfl, rfl, rfl, rfl⟩
  obtain ⟨w, os, hr, n1, n2, n3, n4, n5⟩ := hw
  refine ⟨w, os, hr, ?_⟩
  have e : asc "{\"f\": " = asc "{" ++ escapeString (keyBytes "f") ++ asc ": " := by decide +kernel
  rw [e]
  simp only [convertMap, n1, Res.bind_ok, keysText, n2, valueText, n3, n4, switchText, elemsText, elemText, n5,
    show ¬ ((1 : Int) = 0) by decide, if_false, Int.toNat_one]
  cases doubleToString fixed bits <;> simp

/-- C40 fails for infinities and not-a-numbers: `to_chars` gives `inf` and `nan`. -/
theorem C40_nan_refuted (fixed : Nat → List Nat) (bits : Nat)
    (h : fixed bits = asc "nan" ∨ fixed bits = asc "inf" ∨ fixed bits = asc "-inf") :
    ∃ w os t, run World.empty [.create, .setFloat 0 "f" bits 0] = .ok (w, os) ∧
      convertMap fixed w 0 = .ok t ∧ parse t = none := by
  obtain ⟨w, os, h1, h2⟩ := one_float fixed bits
  have h3 : doubleToString fixed bits = .ok (fixed bits) := by
    unfold doubleToString
    rw [if_pos]
    rcases h with h | h | h <;> rw [h] <;> decide
  rw [h3, Res.bind_ok] at h2
  refine ⟨w, os, _, h1, h2, ?_⟩
  rcases h with h | h | h <;> rw [h] <;> decide +kernel

/-- The value of a double of at least 2^52 (bits as in IEEE 754, sign 0, exponent field at least 1075). -/
def bigValue (bits : Nat) : Nat := (2 ^ 52 + bits % 2 ^ 52) * 2 ^ (bits / 2 ^ 52 - 1075)

theorem digits_lt (l : List Nat) (h : ∀ c ∈ l, isDigit c = true) : digits l < 10 ^ l.length := by
  have : ∀ (l : List Nat) (a : Nat), (∀ c ∈ l, isDigit c = true) →
      l.foldl (fun a c => a * 10 + (c - 48)) a < (a + 1) * 10 ^ l.length := by
    intro l
    induction l with
    | nil => intro a _; simp
    | cons c l ih =>
      intro a h
      have hc := h c (by simp)
      simp only [isDigit, Bool.and_eq_true, decide_eq_true_eq] at hc
      refine Nat.lt_of_lt_of_le (ih (a * 10 + (c - 48)) (fun x hx => h x (by simp [hx]))) ?_
      rw [List.length_cons, Nat.pow_succ, Nat.mul_comm (10 ^ l.length) 10, ← Nat.mul_assoc]
      exact Nat.mul_le_mul_right _ (by omega)
  have h := this l 0 h
  rw [Nat.zero_add, Nat.one_mul] at h
  exact h

/-- C40 fails for large numbers: from 1e100 on the text does not fit into the buffer, and what is written is
unspecified.  The hypothesis is what `to_chars` does for integral values. -/
theorem C40_large_float_refuted (fixed : Nat → List Nat)
    (h : ∀ bits, 1075 ≤ bits / 2 ^ 52 → bits / 2 ^ 52 ≤ 2046 → fixed bits = dec (bigValue bits)) (bits : Nat)
    (h1 : 1075 ≤ bits / 2 ^ 52) (h2 : bits / 2 ^ 52 ≤ 2046) (hb : 10 ^ 100 ≤ bigValue bits) :
    ∃ w os, run World.empty [.create, .setFloat 0 "f" bits 0] = .ok (w, os) ∧ convertMap fixed w 0 = .ub := by
  obtain ⟨w, os, e1, e2⟩ := one_float fixed bits
  refine ⟨w, os, e1, ?_⟩
  have h3 : doubleToString fixed bits = .ub := by
    unfold doubleToString
    rw [if_neg]
    rw [h bits h1 h2]
    intro hl
    have hd := digits_lt _ (dec_digits (bigValue bits))
    rw [digits_dec] at hd
    have := Nat.pow_le_pow_right (n := 10) (by decide) hl
    omega
  rw [e2, h3]
  rfl

example : 1075 ≤ (2023 * 2 ^ 52) / 2 ^ 52 ∧ (2023 * 2 ^ 52) / 2 ^ 52 ≤ 2046 ∧ 10 ^ 100 ≤ bigValue (2023 * 2 ^ 52) := by
  decide +kernel

/-- C40 fails for audio: the brackets around the objects are only written for video, so the file for an audio clip of
two frames is not a JSON text even if the frames have no properties. -/
theorem C40_audio_refuted (fixed : Nat → List Nat) :
    ∃ w os t, run World.empty [.create] = .ok (w, os) ∧ writeFile fixed w false [0, 0] = .ok t ∧ parse t = none :=
  ⟨_, _, _, rfl, rfl, rfl⟩

end VS.Json

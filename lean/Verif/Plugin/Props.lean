import Verif.Plugin.LemmasCore

/-!
# Signatures and invocation

C23: registration accepts exactly the well formed signatures and what the core reports about a
function means the same as what was registered.
C24: a function is called exactly if the arguments meet its signature.
-/

namespace VS.Plugin
open VS VS.Plugin.Spec
open VS.Map (PType)

/-! ## C23 -/

/-- A signature is read as the list of arguments it declares, and rejected exactly if it declares
none. -/
theorem C23_parse (api : Int) (ha : api = 3 ∨ api = 4) (s : String) :
    (∀ args, parseArgString api s = .ok args ↔ Signature api s args) ∧
    ((∃ msg, parseArgString api s = .err msg) ↔ ¬ ∃ args, Signature api s args) := by
  refine ⟨parseArgString_iff ha s, ?_⟩
  constructor
  · rintro ⟨msg, h⟩ ⟨args, h'⟩
    rw [(parseArgString_iff ha s args).2 h'] at h
    cases h
  · intro h
    rcases parseArgString_cases api s with ⟨a, h1⟩ | h1
    · exact absurd ⟨a, (parseArgString_iff ha s a).1 h1⟩ h
    · exact h1

example : parseArgString 4 "clip:vnode;planes:int[]:opt:empty;;any;" =
    .ok [⟨"clip", .videoNode, false, false, false⟩, ⟨"planes", .int, true, true, true⟩,
      anyArg] := by decide +kernel

example : ∃ msg, parseArgString 4 "clip:clip;" = .err msg :=
  ⟨"Argument 'clip' has invalid type 'clip'.", by decide +kernel⟩

/-- A signature declares at most one list of arguments. -/
theorem C23_unambiguous (api : Int) (ha : api = 3 ∨ api = 4) (s : String) (a b : List FArg)
    (h1 : Signature api s a) (h2 : Signature api s b) : a = b := by
  have h := (parseArgString_iff ha s a).2 h1
  rw [(parseArgString_iff ha s b).2 h2] at h
  injection h with h
  exact h.symm

/-- A registration succeeds exactly if the plugin may be extended, the name is a new identifier
and both signatures are well formed; then the function is kept with what it declared, otherwise
the plugin is unchanged and a message is logged. -/
theorem C23_register (p : Plugin) (ha : p.apiMajor = 3 ∨ p.apiMajor = 4) (n a r : String)
    (func : AMap → RMap) :
    let ok := p.readOnly = false ∧ Ident n.toList ∧ lookup n p.funcs = none ∧
      (∃ args, Signature p.apiMajor a args) ∧ (r = "any" ∨ ∃ rets, Signature p.apiMajor r rets)
    (ok → ∃ f, p.register n a r func = ({ p with funcs := insertNew n f p.funcs }, true, []) ∧
      f.name = n ∧ f.func = func ∧ f.returnType = r ∧ Signature p.apiMajor a f.inArgs) ∧
    (¬ ok → ∃ msg, p.register n a r func = (p, false, [msg])) := by
  intro ok
  have hmk : (∃ f, mkFunction p.apiMajor n a r func = .ok f) →
      (∃ args, Signature p.apiMajor a args) ∧
        (r = "any" ∨ ∃ rets, Signature p.apiMajor r rets) := by
    rintro ⟨f, hf⟩
    obtain ⟨_, _, _, h1, h2, _⟩ := mkFunction_inv hf
    refine ⟨⟨_, (parseArgString_iff ha _ _).1 h1⟩, ?_⟩
    unfold parseReturn at h2
    split at h2
    · exact .inr ⟨_, (parseArgString_iff ha _ _).1 h2⟩
    · next h => exact .inl (by simpa using h)
  rcases register_cases p n a r func with ⟨m, e, hm⟩ | ⟨f, h1, h2, h3, h4, e⟩
  · refine ⟨?_, fun _ => ⟨m, e⟩⟩
    rintro ⟨h1, h2, h3, ⟨args, h4⟩, h5⟩
    exfalso
    rcases hm with h | h | h | ⟨msg, h⟩
    · rw [h1] at h; cases h
    · exact h h2
    · rw [h3] at h; cases h
    · unfold mkFunction at h
      rw [(parseArgString_iff ha _ _).2 h4, Res.bind_ok] at h
      unfold parseReturn at h
      split at h
      · next hr =>
        rcases h5 with h5 | ⟨rets, h5⟩
        · exact hr h5
        · rw [(parseArgString_iff ha _ _).2 h5] at h; cases h
      · cases h
  · obtain ⟨g1, g2, g3, g4, _, _⟩ := mkFunction_inv h4
    refine ⟨fun _ => ⟨f, e, g1, g3, g2, (parseArgString_iff ha _ _).1 g4⟩, ?_⟩
    intro h
    exact absurd ⟨h1, h2, h3, hmk ⟨f, h4⟩⟩ h

example : ((Plugin.fresh "" "" "").register "Trim" "first:int:opt;" "any" (fun _ => ⟨none, []⟩)).2.1
    = true := by decide +kernel

/-- The arguments reported for a function are the registered ones: reading the reported text as
version 4 gives the arguments the function has, for every function of every loaded plugin
(version 3 plugins without the word `any`, which version 3 does not know). -/
theorem C23_reported (c : Core) (hc : Reachable c) (p : Plugin) (hp : Loaded c p) (f : PFunc)
    (hf : Has p f) (h3 : p.apiMajor = 3 → ∀ a ∈ f.inArgs, a.type ≠ .unset) :
    parseArgString 4 f.argString = .ok f.inArgs := by
  have hi := reachable_inv hc
  obtain ⟨k, hk⟩ := hp
  obtain ⟨k', hk'⟩ := hf
  have hl := hi.inv k p hk
  obtain ⟨hn, _, api, a, r, func, hm, hapi⟩ := hl.funcs k' f hk'
  obtain ⟨_, _, _, g1, _, g2⟩ := mkFunction_inv hm
  rcases hapi with hapi | ⟨_, hapi⟩
  · subst hapi
    rw [g2, if_neg (by decide)]
    exact parseArgs_zero g1
  · rcases hl.major with h | h
    · rw [h] at hapi
      subst hapi
      rw [g2, if_pos rfl, parseArgString_iff (.inr rfl)]
      have hgood := parseArgString_good g1
      unfold Signature getV4ArgString
      rw [String.toList_ofList]
      apply print_signature
      intro x hx
      have hx3 := h3 h x hx
      rcases hgood x hx with e | ⟨hg, _⟩
      · exact absurd (by rw [e]; rfl) hx3
      · refine ⟨hg, ?_⟩
        obtain ⟨ps, _, he⟩ := (parseArgString_iff (.inl rfl) _ _).1 g1
        obtain ⟨q, _, hd⟩ := each_mem he x hx
        cases hd with
        | any _ => exact absurd rfl hx3
        | arg _ _ ht _ _ _ =>
          simp only [types, if_true, List.mem_cons, Prod.mk.injEq, List.not_mem_nil, or_false] at ht
          rcases ht with ⟨_, rfl⟩ | ⟨_, rfl⟩ | ⟨_, rfl⟩ | ⟨_, rfl⟩ | ⟨_, rfl⟩ | ⟨_, rfl⟩
          · exact ⟨"int", (by decide : ("int", PType.int) ∈ types 4), rfl⟩
          · exact ⟨"float", (by decide : ("float", PType.float) ∈ types 4), rfl⟩
          · exact ⟨"data", (by decide : ("data", PType.data) ∈ types 4), rfl⟩
          · exact ⟨"vnode", (by decide : ("vnode", PType.videoNode) ∈ types 4), rfl⟩
          · exact ⟨"vframe", (by decide : ("vframe", PType.videoFrame) ∈ types 4), rfl⟩
          · exact ⟨"func", (by decide : ("func", PType.function) ∈ types 4), rfl⟩
    · rw [h] at hapi
      subst hapi
      rw [g2, if_neg (by decide)]
      exact g1

/-- A version 3 registration and what is reported for it. -/
example : ∃ f, mkFunction 3 "F" "clip:clip;a:float[]:empty:opt" "any" (fun _ => ⟨none, []⟩) = .ok f ∧
    f.argString = "clip:vnode;a:float[]:opt:empty;" := ⟨_, rfl, by decide +kernel⟩

/-- What version 3 programs are told about a function means the same, too. -/
theorem C23_reported_v3 (c : Core) (hc : Reachable c) (p : Plugin) (hp : Loaded c p) (f : PFunc)
    (hf : Has p f) :
    (f.isV3Compatible = true →
      (f.name, f.name ++ ";" ++ getV3ArgString f.inArgs) ∈ p.functions3 ∧
      parseArgString 3 (getV3ArgString f.inArgs) = .ok f.inArgs) ∧
    (f.isV3Compatible = false → ∀ e ∈ p.functions3, e.1 ≠ f.name) := by
  have hi := reachable_inv hc
  obtain ⟨k, hk⟩ := hp
  obtain ⟨k', hk'⟩ := hf
  have hl := hi.inv k p hk
  obtain ⟨hn, _, api, a, r, func, hm, hapi⟩ := hl.funcs k' f hk'
  obtain ⟨_, _, _, g1, _, g2⟩ := mkFunction_inv hm
  subst hn
  constructor
  · intro hv
    constructor
    · unfold Plugin.functions3
      exact List.mem_map.2 ⟨(f.name, f), List.mem_filter.2 ⟨hk', hv⟩, rfl⟩
    · rw [parseArgString_iff (.inl rfl)]
      have hgood := parseArgString_good g1
      unfold Signature getV3ArgString
      rw [String.toList_ofList]
      apply print_signature
      intro x hx
      have hxv := List.all_eq_true.1 hv x (List.mem_append.2 (.inl hx))
      simp only [ne_eq, Bool.and_eq_true, decide_eq_true_eq] at hxv
      rcases hgood x hx with e | ⟨hg, _⟩
      · exact absurd (by rw [e]; rfl) hxv.2
      · refine ⟨hg, ?_⟩
        cases ht : x.type with
        | unset => exact absurd ht hxv.2
        | int => exact ⟨"int", by decide, rfl⟩
        | float => exact ⟨"float", by decide, rfl⟩
        | data => exact ⟨"data", by decide, rfl⟩
        | function => exact ⟨"func", by decide, rfl⟩
        | videoNode => exact ⟨"clip", by decide, rfl⟩
        | audioNode => exact absurd ht hxv.1.1
        | videoFrame => exact ⟨"frame", by decide, rfl⟩
        | audioFrame => exact absurd ht hxv.1.2
  · intro hv e he hne
    unfold Plugin.functions3 at he
    obtain ⟨⟨k, g⟩, hg, rfl⟩ := List.mem_map.1 he
    obtain ⟨hg1, hg2⟩ := List.mem_filter.1 hg
    simp only at hne
    subst hne
    have := hl.sorted.key_eq hg1 hk'
    subst this
    simp only at hg2
    rw [hv] at hg2
    cases hg2

/-- Where the claim fails: an argument name may be declared twice. -/
theorem C23_duplicate_refuted :
    ∃ f, mkFunction 4 "F" "a:int;a:float" "any" (fun _ => ⟨none, []⟩) = .ok f ∧
      f.inArgs.map (·.name) = ["a", "a"] := ⟨_, rfl, by decide +kernel⟩

/-- Where the claim fails: a version 3 plugin that uses `any` is accepted but what is reported for
its function is not a signature. -/
theorem C23_any_v3_refuted :
    ∃ f, mkFunction 3 "F" "any" "any" (fun _ => ⟨none, []⟩) = .ok f ∧ f.argString = ":;" ∧
      ¬ ∃ args, Signature 4 f.argString args := by
  refine ⟨_, rfl, by decide +kernel, ?_⟩
  rintro ⟨args, h⟩
  have := (parseArgString_iff (.inr rfl) _ _).2 h
  have hx : ∃ m, parseArgString 4 ":;" = .err m :=
    ⟨"Invalid argument specifier ':'. It appears to be incomplete.", by decide +kernel⟩
  obtain ⟨m, hx⟩ := hx
  rw [show (PFunc.argString _) = ":;" from by decide +kernel, hx] at this
  cases this

/-! ## C24 -/

/-- Invoking a function of a loaded plugin.  If the arguments meet the signature, the function is
called with exactly these arguments and the caller receives what it returned; a mismatch with
the declared return values is only logged.  If they do not, it is not called and the caller
receives an error that starts with the name of the function.  (A version 3 function must not
return audio; the process ends if it does.) -/
theorem C24_invoke (c : Core) (hc : Reachable c) (p : Plugin) (hp : Loaded c p) (f : PFunc)
    (hf : Has p f) (args : AMap) (hargs : GoodMap args) (hres : GoodMap (f.func args).entries) :
    (Conforms f.inArgs args → (p.apiMajor = 3 → isV3CompatibleMap (f.func args).entries = true) →
      ∃ w, p.invoke f.name args = .ok ⟨some args, f.func args, w⟩ ∧
        (w = [] ↔ f.returnType = "any" ∨ (f.func args).error ≠ none ∨
          Conforms f.retArgs (f.func args).entries)) ∧
    (Conforms f.inArgs args → p.apiMajor = 3 →
      isV3CompatibleMap (f.func args).entries = false → ∃ m, p.invoke f.name args = .fatal m) ∧
    (¬ Conforms f.inArgs args →
      ∃ msg, msg ≠ "" ∧ p.invoke f.name args = .ok ⟨none, errorMap (f.name ++ ": " ++ msg), []⟩) := by
  have hi := reachable_inv hc
  obtain ⟨k, hk⟩ := hp
  obtain ⟨k', hk'⟩ := hf
  have hl := hi.inv k p hk
  obtain ⟨hn, _, api, a, r, func, hm, hapi⟩ := hl.funcs k' f hk'
  obtain ⟨_, _, _, g1, g2, _⟩ := mkFunction_inv hm
  have hsig := parseArgString_good g1
  have hret := parseReturn_good g2
  have hinv : p.invoke f.name args = f.invoke p.apiMajor args := by
    unfold Plugin.invoke
    rw [hn, (lookup_iff hl.sorted).2 hk']
  obtain ⟨msg, hmsg, hconf⟩ := checkValues_iff "argument" hargs hsig
  obtain ⟨w, hw, hw'⟩ := checkReturn_ok hret hres
  rw [hinv]
  unfold PFunc.invoke
  rw [hmsg, Res.bind_ok]
  refine ⟨?_, ?_, ?_⟩
  · intro h h3
    rw [if_neg (by simpa using hconf.2 h)]
    simp only
    rw [if_neg, hw, Res.bind_ok]
    · exact ⟨w, rfl, hw'⟩
    · rintro ⟨e, hx⟩
      rw [h3 e] at hx
      cases hx
  · intro h h3 hx
    rw [if_neg (by simpa using hconf.2 h)]
    simp only
    rw [if_pos ⟨h3, by rw [hx]; rfl⟩]
    exact ⟨_, rfl⟩
  · intro h
    have hne : msg ≠ "" := fun e => h (hconf.1 e)
    rw [if_pos hne]
    exact ⟨msg, hne, rfl⟩

/-- Arguments that meet a signature and arguments that do not. -/
example : Conforms [⟨"clip", .videoNode, false, false, false⟩, ⟨"n", .int, true, false, true⟩]
    [("clip", .videoNode, 1), ("n", .int, 3)] := by
  refine ⟨?_, .inr ?_⟩
  · intro a ha _
    simp only [List.mem_cons, List.not_mem_nil, or_false] at ha
    rcases ha with rfl | rfl
    · exact ⟨rfl, .inr (by decide), .inr (by decide)⟩
    · exact ⟨rfl, .inl rfl, .inr (by decide)⟩
  · intro e he
    simp only [List.mem_cons, List.not_mem_nil, or_false] at he
    rcases he with rfl | rfl
    · exact ⟨_, List.mem_cons_self .., by decide, rfl⟩
    · exact ⟨_, List.mem_cons_of_mem _ (List.mem_cons_self ..), by decide, rfl⟩

example : ¬ Conforms [⟨"clip", .videoNode, false, false, false⟩] [("clip", .videoNode, 2)] := by
  rintro ⟨h, _⟩
  have := h _ (List.mem_cons_self ..) (by decide)
  rcases this.2.1 with h | h
  · cases h
  · exact absurd h (by decide)

/-- Asking for a function the plugin does not have gives an error and calls nothing. -/
theorem C24_unknown (c : Core) (hc : Reachable c) (p : Plugin) (hp : Loaded c p) (n : String)
    (hn : ∀ f, Has p f → f.name ≠ n) (args : AMap) :
    p.invoke n args =
      .ok ⟨none, errorMap ("Function '" ++ n ++ "' not found in " ++ p.id), []⟩ := by
  have hi := reachable_inv hc
  obtain ⟨k, hk⟩ := hp
  have hl := hi.inv k p hk
  unfold Plugin.invoke
  cases hx : lookup n p.funcs with
  | none => rfl
  | some f =>
    have hm := lookup_mem hx
    exact absurd (hl.funcs n f hm).1 (hn f ⟨n, hm⟩)

end VS.Plugin

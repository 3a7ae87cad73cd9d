import Verif.Map.Model

/-!
# Plugins, function signatures and invocation

Model of the plugin part of src/core/vscore.cpp: `split` and `parseArgString` (lines 417-515),
`VSPluginFunction` (517-684), `VSPlugin` (2221-2463), the plugin table of `VSCore`
(2029-2079, 2119-2181) and manifests (1842-1899).

Simplifications:
* C strings are Lean strings, one character per byte;
* a property map is the list of its keys, in key order, with type and number of values (the map
  itself is modelled in `Verif.Map`);
* the function behind a registered name is an arbitrary function from argument maps to result
  maps; it does not touch the plugin table while it runs;
* opening a library is an input: whether it opens, which entry point it has and the sequence of
  calls the entry point makes;
* a plugin pointer is the identifier of the plugin (plugins are never unloaded while the core
  lives, and C25 shows that identifiers are unique);
* calls are atomic; the code holds `pluginLock` resp. `functionLock`.
-/

namespace VS.Plugin
open VS.Map (PType)

/-! ## Strings -/

/-- `isAlpha`, src/core/vscore.cpp:40-42. -/
def isAlpha (c : Char) : Bool := ('a' ≤ c && c ≤ 'z') || ('A' ≤ c && c ≤ 'Z')

/-- `isAlphaNumUnderscore`, src/core/vscore.cpp:44-46. -/
def isAlphaNumUnderscore (c : Char) : Bool :=
  ('a' ≤ c && c ≤ 'z') || ('A' ≤ c && c ≤ 'Z') || ('0' ≤ c && c ≤ '9') || c = '_'

/-- `isValidIdentifier`, src/core/vscore.cpp:48-59. -/
def isValidIdentifier (s : List Char) : Bool :=
  match s with
  | [] => false
  | c :: t => isAlpha c && t.all isAlphaNumUnderscore

/-- The loop of `split` without empty pieces, src/core/vscore.cpp:428-440.  The position in the
string is the remaining suffix; every turn removes at least one character, so the fuel given by
`split` suffices. -/
def splitLoop (d : Char) : Nat → List Char → List (List Char)
  | 0, _ => []
  | fuel + 1, s =>
    match s.dropWhile (· == d) with
    | [] => []
    | c :: t =>
      let piece := (c :: t).takeWhile (· != d)
      match (c :: t).dropWhile (· != d) with
      | [] => [piece]
      | _ :: rest => piece :: splitLoop d fuel rest

/-- `split(…, split1::no_empties)` with a single delimiter, src/core/vscore.cpp:421-441. -/
def split (d : Char) (s : List Char) : List (List Char) := splitLoop d (s.length + 1) s

/-! ## Argument strings -/

/-- `FilterArgument`, src/core/vscore.h:380-390. -/
structure FArg where
  name : String
  type : PType
  arr : Bool
  empty : Bool
  opt : Bool
  deriving DecidableEq, Repr

/-- The table of type names, src/core/vscore.cpp:472-489. -/
def typeOfName (apiMajor : Int) (t : List Char) : Option PType :=
  if t = "int".toList then some .int
  else if t = "float".toList then some .float
  else if t = "data".toList then some .data
  else if (t = "vnode".toList ∧ apiMajor > 3) ∨ (apiMajor = 3 ∧ t = "clip".toList) then
    some .videoNode
  else if t = "anode".toList ∧ apiMajor > 3 then some .audioNode
  else if (t = "vframe".toList ∧ apiMajor > 3) ∨ (apiMajor = 3 ∧ t = "frame".toList) then
    some .videoFrame
  else if t = "aframe".toList ∧ apiMajor > 3 then some .audioFrame
  else if t = "func".toList then some .function
  else none

/-- Strip a trailing `[]`, src/core/vscore.cpp:467-470. -/
def stripArray (t : List Char) : List Char × Bool :=
  if t.length > 2 ∧ t.drop (t.length - 2) = "[]".toList then (t.take (t.length - 2), true)
  else (t, false)

/-- The loop over the modifiers, src/core/vscore.cpp:491-503; the result is (opt, empty). -/
def modifiers (argName : List Char) (opt empty : Bool) : List (List Char) → Res (Bool × Bool)
  | [] => .ok (opt, empty)
  | m :: t =>
    if m = "opt".toList then
      if opt then
        .err (String.ofList ("Argument '".toList ++ argName ++
          "' has duplicate argument specifier '".toList ++ m ++ "'".toList))
      else modifiers argName true empty t
    else if m = "empty".toList then
      if empty then
        .err (String.ofList ("Argument '".toList ++ argName ++
          "' has duplicate argument specifier '".toList ++ m ++ "'".toList))
      else modifiers argName opt true t
    else
      .err (String.ofList ("Argument '".toList ++ argName ++
        "' has unknown argument modifier '".toList ++ m ++ "'".toList))

/-- One argument with at least a name and a type, src/core/vscore.cpp:460-513. -/
def parseTyped (apiMajor : Int) (argName typeName : List Char) (mods : List (List Char)) :
    Res FArg :=
  let st := stripArray typeName
  match typeOfName apiMajor st.1 with
  | none =>
    .err (String.ofList ("Argument '".toList ++ argName ++ "' has invalid type '".toList ++ st.1 ++
      "'.".toList))
  | some ty => do
    let oe ← modifiers argName false false mods
    if !isValidIdentifier argName then
      .err (String.ofList ("Argument name '".toList ++ argName ++
        "' contains illegal characters.".toList))
    else if oe.2 && !st.2 then
      .err (String.ofList ("Argument '".toList ++ argName ++
        "' is not an array. Only array arguments can have the empty flag set.".toList))
    else .ok { name := String.ofList argName, type := ty, arr := st.2, empty := oe.2, opt := oe.1 }

/-- One turn of the loop of `parseArgString`, src/core/vscore.cpp:448-513. -/
def parseArg (apiMajor : Int) (arg : List Char) : Res FArg :=
  match split ':' arg with
  | [] =>
    .err (String.ofList ("Invalid argument specifier '".toList ++ arg ++
      "'. It appears to be incomplete.".toList))
  | [n] =>
    if n = "any".toList then
      .ok { name := "", type := .unset, arr := false, empty := false, opt := false }
    else
      .err (String.ofList ("Invalid argument specifier '".toList ++ arg ++
        "'. It appears to be incomplete.".toList))
  | n :: t :: mods => parseTyped apiMajor n t mods

/-- The loop of `parseArgString`, src/core/vscore.cpp:448-514. -/
def parseArgs (apiMajor : Int) : List (List Char) → Res (List FArg)
  | [] => .ok []
  | a :: t => do
    let x ← parseArg apiMajor a
    let r ← parseArgs apiMajor t
    .ok (x :: r)

/-- `VSPluginFunction::parseArgString`, src/core/vscore.cpp:443-515; exceptions are `err`. -/
def parseArgString (apiMajor : Int) (s : String) : Res (List FArg) :=
  parseArgs apiMajor (split ';' s.toList)

/-- The type names of `getV4ArgString`, src/core/vscore.cpp:625-640; the default case is an
assertion, which release builds do not check. -/
def v4TypeName : PType → List Char
  | .int => "int".toList
  | .float => "float".toList
  | .data => "data".toList
  | .videoNode => "vnode".toList
  | .videoFrame => "vframe".toList
  | .function => "func".toList
  | _ => []

/-- The type names of `getV3ArgString`, src/core/vscore.cpp:659-674. -/
def v3TypeName : PType → List Char
  | .int => "int".toList
  | .float => "float".toList
  | .data => "data".toList
  | .videoNode => "clip".toList
  | .videoFrame => "frame".toList
  | .function => "func".toList
  | _ => []

/-- One argument of an argument string, src/core/vscore.cpp:621-648, 655-682. -/
def printArg (typeName : PType → List Char) (a : FArg) : List Char :=
  a.name.toList ++ [':'] ++ typeName a.type ++ (if a.arr then "[]".toList else []) ++
    (if a.opt then ":opt".toList else []) ++ (if a.empty then ":empty".toList else []) ++ [';']

/-- The loop of `getV4ArgString` and `getV3ArgString`, src/core/vscore.cpp:619-649, 653-683. -/
def printArgs (typeName : PType → List Char) : List FArg → List Char
  | [] => []
  | a :: t => printArg typeName a ++ printArgs typeName t

/-- `VSPluginFunction::getV4ArgString`, src/core/vscore.cpp:618-650. -/
def getV4ArgString (args : List FArg) : String := String.ofList (printArgs v4TypeName args)

/-- `VSPluginFunction::getV3ArgString`, src/core/vscore.cpp:652-684. -/
def getV3ArgString (args : List FArg) : String := String.ofList (printArgs v3TypeName args)

/-! ## Invocation -/

/-- The entries of a property map in key order: key, type and number of values. -/
abbrev AMap := List (String × PType × Nat)

/-- A result map: its error message, if any, and its entries. -/
structure RMap where
  error : Option String
  entries : AMap
  deriving DecidableEq, Repr

/-- `VSPluginFunction`, src/core/vscore.h:1060-1081. -/
structure PFunc where
  name : String
  argString : String
  returnType : String
  inArgs : List FArg
  retArgs : List FArg
  func : AMap → RMap

/-- The declared return values, src/core/vscore.cpp:522-523. -/
def parseReturn (apiMajor : Int) (returnType : String) : Res (List FArg) :=
  if returnType ≠ "any" then parseArgString apiMajor returnType else .ok []

/-- `VSPluginFunction::VSPluginFunction`, src/core/vscore.cpp:517-524. -/
def mkFunction (apiMajor : Int) (name argString returnType : String) (func : AMap → RMap) :
    Res PFunc := do
  let a ← parseArgString apiMajor argString
  let r ← parseReturn apiMajor returnType
  .ok (PFunc.mk name (if apiMajor = 3 then getV4ArgString a else argString) returnType a r func)

/-- `VSMap::find`, src/core/vscore.h:292-295. -/
def AMap.find (m : AMap) (k : String) : Option (PType × Nat) :=
  match m with
  | [] => none
  | (k', v) :: t => if k' = k then some v else AMap.find t k

/-- `mapGetType`, src/core/vsapi.cpp:326-330. -/
def mapGetType (m : AMap) (k : String) : PType :=
  match m.find (VS.Map.remapColorRange k) with
  | some v => v.1
  | none => .unset

/-- The end of `checkValues`, src/core/vscore.cpp:561-570. -/
def leftOver (kind : String) : List String → String
  | [] => ""
  | k :: t => "no " ++ kind ++ "(s) named " ++ t.foldl (fun s x => s ++ (", " ++ x)) k

/-- The loop of `checkValues`, src/core/vscore.cpp:531-559; `rem` is the set of keys not yet
matched, in key order.  The empty string means that nothing is wrong.  `arr` is a null pointer
if `find` and `mapGetType` disagree. -/
def checkLoop (kind : String) (m : AMap) (rem : List String) : List FArg → Res String
  | [] => .ok (leftOver kind rem)
  | a :: t =>
    if a.type = .unset then checkLoop kind m [] t
    else
      let propType := mapGetType m a.name
      if propType ≠ .unset then
        let rem := rem.filter (· ≠ a.name)
        if a.type ≠ propType then .ok (kind ++ " " ++ a.name ++ " is not of the correct type")
        else
          match m.find a.name with
          | none => .ub
          | some v =>
            if !a.arr && decide (v.2 > 1) then
              .ok (kind ++ " " ++ a.name ++
                " is not of array type but more than one value was supplied")
            else if !a.empty && decide (v.2 < 1) then
              .ok (kind ++ " " ++ a.name ++ " does not accept empty arrays")
            else checkLoop kind m rem t
      else if !a.opt then .ok (kind ++ " " ++ a.name ++ " is required")
      else checkLoop kind m rem t

/-- `VSPluginFunction::checkValues`, src/core/vscore.cpp:526-571. -/
def checkValues (fargs : List FArg) (m : AMap) (kind : String) : Res String :=
  checkLoop kind m (m.map (·.1)) fargs

/-- `VSMap::isV3Compatible`, src/core/vscore.cpp:88-94. -/
def isV3CompatibleMap (m : AMap) : Bool :=
  m.all fun e => e.2.1 ≠ .audioNode && e.2.1 ≠ .audioFrame && e.2.1 ≠ .unset

/-- The map left behind by `mapSetError`, src/core/vscore.h:357-363. -/
def errorMap (msg : String) : RMap := ⟨some msg, [("_Error", .data, 1)]⟩

/-- What an invocation did: the argument map the function was called with (if it was), the map
handed to the caller, and the warnings logged. -/
structure Invocation where
  called : Option AMap
  result : RMap
  warnings : List String
  deriving DecidableEq, Repr

/-- The check of the declared return values, src/core/vscore.cpp:594-598. -/
def checkReturn (f : PFunc) (v : RMap) : Res (List String) :=
  if f.returnType ≠ "any" ∧ v.error = none then do
    let mismatch ← checkValues f.retArgs v.entries "return value"
    .ok (if mismatch ≠ "" then [f.name ++ ": " ++ mismatch] else [])
  else .ok []

/-- `VSPluginFunction::invoke`, src/core/vscore.cpp:573-605; graph inspection is left out. -/
def PFunc.invoke (apiMajor : Int) (f : PFunc) (args : AMap) : Res Invocation := do
  let mismatch ← checkValues f.inArgs args "argument"
  if mismatch ≠ "" then
    .ok (Invocation.mk none (errorMap (f.name ++ ": " ++ mismatch)) [])
  else
    let v := f.func args
    if apiMajor = 3 ∧ !isV3CompatibleMap v.entries then
      .fatal (f.name ++ ": filter node returned not yet supported type")
    else do
      let w ← checkReturn f v
      .ok (Invocation.mk (some args) v w)

/-- `VSPluginFunction::isV3Compatible`, src/core/vscore.cpp:608-616. -/
def PFunc.isV3Compatible (f : PFunc) : Bool :=
  (f.inArgs ++ f.retArgs).all fun a =>
    a.type ≠ .audioNode && a.type ≠ .audioFrame && a.type ≠ .unset

/-! ## Plugins -/

/-- `std::map::find` on an association list sorted by key. -/
def lookup {α : Type} (k : String) : List (String × α) → Option α
  | [] => none
  | (k', v) :: t => if k' = k then some v else lookup k t

/-- `std::map::insert`/`emplace`: an existing entry is kept. -/
def insertNew {α : Type} (k : String) (v : α) : List (String × α) → List (String × α)
  | [] => [(k, v)]
  | (k', v') :: t =>
    if k < k' then (k, v) :: (k', v') :: t
    else if k' = k then (k', v') :: t
    else (k', v') :: insertNew k v t

/-- `std::map`: assign the value of a key that is present. -/
def update {α : Type} (k : String) (v : α) : List (String × α) → List (String × α)
  | [] => []
  | (k', v') :: t => if k' = k then (k', v) :: t else (k', v') :: update k v t

/-- The entry after the one with this key, `++it` in src/core/vscore.cpp:2150-2153, 2441-2444. -/
def nextAfter {α : Type} (k : String) : List (String × α) → Option α
  | [] => none
  | (k', _) :: t => if k' = k then (t.head?).map (·.2) else nextAfter k t

/-- `VSPlugin`, src/core/vscore.h:1084-1121. -/
structure Plugin where
  apiMajor : Int
  apiMinor : Int
  pluginVersion : Int
  hasConfig : Bool
  readOnly : Bool
  readOnlySet : Bool
  filename : String
  fullname : String
  ns : String
  id : String
  funcs : List (String × PFunc)

/-- `VSPlugin::VSPlugin(VSCore *)`, src/core/vscore.cpp:2223-2225, and the fields before the
entry point of a library runs, src/core/vscore.cpp:2243-2244, 2280. -/
def Plugin.fresh (filename forcedNamespace forcedId : String) : Plugin :=
  { apiMajor := 0, apiMinor := 0, pluginVersion := 0, hasConfig := false, readOnly := false
    readOnlySet := false, filename := filename, fullname := "", ns := forcedNamespace
    id := forcedId, funcs := [] }

/-- `VSPlugin::configPlugin`, src/core/vscore.cpp:2370-2395; `flags` is the bit pattern. -/
def Plugin.config (p : Plugin) (identifier pluginNamespace fullname : String)
    (pluginVersion apiVersion : Int) (flags : Nat) : Res Plugin :=
  if p.hasConfig then .fatal ("Attempted to configure plugin " ++ identifier ++ " twice")
  else if flags ≠ 0 ∧ flags ≠ 1 then
    .fatal ("Invalid flags passed to configPlugin() by " ++ identifier)
  else
    .ok { p with
      id := if p.id = "" then identifier else p.id
      ns := if p.ns = "" then pluginNamespace else p.ns
      pluginVersion := pluginVersion
      fullname := fullname
      apiMajor := if apiVersion ≥ 0x10000 then apiVersion / 0x10000 else apiVersion
      apiMinor := if apiVersion ≥ 0x10000 then apiVersion % 0x10000 else p.apiMinor
      readOnlySet := flags = 0
      hasConfig := true }

/-- `VSPlugin::registerFunction`, src/core/vscore.cpp:2397-2423; the log message is the third
component. -/
def Plugin.register (p : Plugin) (name args returnType : String) (func : AMap → RMap) :
    Plugin × Bool × List String :=
  if p.readOnly then
    (p, false, ["API MISUSE! Tried to register function " ++ name ++ " but plugin " ++ p.id ++
      " is read only"])
  else if !isValidIdentifier name.toList then
    (p, false, ["API MISUSE! Plugin " ++ p.id ++ " tried to register '" ++ name ++
      "' which is an illegal identifier"])
  else if (lookup name p.funcs).isSome then
    (p, false, ["API MISUSE! Tried to register function '" ++ name ++
      "' more than once for plugin " ++ p.id])
  else
    match mkFunction p.apiMajor name args returnType func with
    | .ok f => ({ p with funcs := insertNew name f p.funcs }, true, [])
    | .err e => (p, false, ["API MISUSE! Function '" ++ name ++
        "' failed to register with error: " ++ e])
    | _ => (p, false, [])

/-- `VSPlugin::invoke`, src/core/vscore.cpp:2425-2434. -/
def Plugin.invoke (p : Plugin) (funcName : String) (args : AMap) : Res Invocation :=
  match lookup funcName p.funcs with
  | some f => f.invoke p.apiMajor args
  | none =>
    .ok (Invocation.mk none (errorMap ("Function '" ++ funcName ++ "' not found in " ++ p.id)) [])

/-- `VSPlugin::getNextFunction`, src/core/vscore.cpp:2436-2446; `none` is the null pointer. -/
def Plugin.nextFunction (p : Plugin) : Option String → Option PFunc
  | none => (p.funcs.head?).map (·.2)
  | some name => nextAfter name p.funcs

/-- `VSPlugin::getFunctionByName`, src/core/vscore.cpp:2448-2454. -/
def Plugin.functionByName (p : Plugin) (name : String) : Option PFunc := lookup name p.funcs

/-- `VSPlugin::getFunctions3`, src/core/vscore.cpp:2456-2463: name and description of the
functions version 3 programs can use. -/
def Plugin.functions3 (p : Plugin) : List (String × String) :=
  (p.funcs.filter fun f => f.2.isV3Compatible).map fun f =>
    (f.1, f.1 ++ ";" ++ getV3ArgString f.2.inArgs)

/-- What the entry point of a library can do with the plugin handle:
`VSPLUGINAPI::configPlugin` (src/core/vsapi.cpp:34-37) and `registerFunction` (39-42). -/
inductive Act where
  | config (identifier ns fullname : String) (pluginVersion apiVersion : Int) (flags : Nat)
  | register (name args returnType : String) (func : AMap → RMap)

/-- The calls of an entry point, in order. -/
def Plugin.runInit (p : Plugin) : List Act → Res Plugin
  | [] => .ok p
  | .config i n f v a fl :: t => do
    let p ← p.config i n f v a fl
    p.runInit t
  | .register n a r f :: t => (p.register n a r f).1.runInit t

/-- The entry points of a library: `VapourSynthPluginInit2` receives the interface of version 4;
`VapourSynthPluginInit` that of version 3, where `configPlugin3`
(src/core/vscore.cpp:2238-2241) has no version and a read only flag, and `registerFunction3`
(src/core/vsapi.cpp:44-47) declares no return type. -/
inductive Act3 where
  | config (identifier ns fullname : String) (apiVersion : Int) (readOnly : Bool)
  | register (name args : String) (func : AMap → RMap)

/-- The calls behind the version 3 interface, src/core/vscore.cpp:2238-2241,
src/core/vsapi.cpp:44-47. -/
def Act3.act : Act3 → Act
  | .config i n f a ro => .config i n f (-1) a (if ro then 0 else 1)
  | .register n a f => .register n a "any" f

/-- A library file as the loader sees it. -/
structure Lib where
  opens : Bool
  init4 : Option (List Act)
  init3 : Option (List Act3)

/-- Which entry point runs, src/core/vscore.cpp:2323-2338 (the Unix branch). -/
def Lib.acts (l : Lib) : Option (List Act) :=
  match l.init4, l.init3 with
  | some a, _ => some a
  | none, some a => some (a.map Act3.act)
  | none, none => none

/-- The newest minor version of interface 4 the core was built with, include/VapourSynth4.h:28-34
with `VS_USE_LATEST_API` (meson.build:98). -/
def apiMinor4 : Int := 2

/-- The check of the interface version, src/core/vscore.cpp:2348; version 3 is known up to 3.6
(include/VapourSynth.h:26-27). -/
def supported (apiMajor apiMinor : Int) : Bool :=
  (apiMajor = 4 && decide (apiMinor ≤ apiMinor4)) || (apiMajor = 3 && decide (apiMinor ≤ 6))

/-- `VSPlugin::VSPlugin(filename, …)`, src/core/vscore.cpp:2243-2359; `VSException` is `err`. -/
def Plugin.load (filename forcedNamespace forcedId : String) (l : Lib) : Res Plugin :=
  if !l.opens then .err ("Failed to load " ++ filename)
  else
    match l.acts with
    | none => .err ("No entry point found in " ++ filename)
    | some acts => do
      let p ← (Plugin.fresh filename forcedNamespace forcedId).runInit acts
      let p := { p with readOnly := p.readOnly || p.readOnlySet }
      if supported p.apiMajor p.apiMinor then .ok p
      else .err ("Core does not support the API of " ++ filename)

/-! ## The plugin table of a core -/

/-- `VSCore::plugins`, src/core/vscore.h:1144, and the messages logged. -/
structure Core where
  plugins : List (String × Plugin)
  log : List String

/-- `VSCore::getPluginByID`, src/core/vscore.cpp:2129-2135. -/
def Core.pluginByID (c : Core) (identifier : String) : Option Plugin := lookup identifier c.plugins

/-- The loop of `VSCore::getPluginByNamespace`, src/core/vscore.cpp:2139-2142. -/
def findNamespace (ns : String) : List (String × Plugin) → Option Plugin
  | [] => none
  | (_, p) :: t => if p.ns = ns then some p else findNamespace ns t

/-- `VSCore::getPluginByNamespace`, src/core/vscore.cpp:2137-2144. -/
def Core.pluginByNamespace (c : Core) (ns : String) : Option Plugin := findNamespace ns c.plugins

/-- `VSCore::getNextPlugin`, src/core/vscore.cpp:2146-2156; `none` is the null pointer. -/
def Core.nextPlugin (c : Core) : Option String → Option Plugin
  | none => (c.plugins.head?).map (·.2)
  | some id => nextAfter id c.plugins

/-- The part of an error message that names the file of the other plugin,
src/core/vscore.cpp:2166-2167, 2174-2175. -/
def fromFile (word : String) (p : Plugin) : String :=
  if p.filename ≠ "" then word ++ p.filename else ""

/-- `VSCore::loadPlugin`, src/core/vscore.cpp:2158-2181. -/
def Core.loadPlugin (c : Core) (filename forcedNamespace forcedId : String) (l : Lib) :
    Res Core := do
  let p ← Plugin.load filename forcedNamespace forcedId l
  match c.pluginByID p.id with
  | some q =>
    .err ("Plugin " ++ filename ++ " already loaded (" ++ p.id ++ ")" ++ fromFile " from " q)
  | none =>
    match c.pluginByNamespace p.ns with
    | some q =>
      .err ("Plugin load of " ++ filename ++ " failed, namespace " ++ p.ns ++
        " already populated" ++ fromFile " by " q)
    | none => .ok { c with plugins := insertNew p.id p c.plugins }

/-- The functions of the built-in units: each is a list of registrations made while the core is
being created (src/core/coreplugins.cpp, src/core/vsresize.cpp:951-, src/core/textfilter.cpp:764-,
src/core/vscore.cpp:1788-1791). -/
def registerAll (p : Plugin) : List (String × String × String × (AMap → RMap)) → Plugin
  | [] => p
  | (n, a, r, f) :: t => registerAll (p.register n a r f).1 t

/-- A built-in unit: created, configured, its functions registered. -/
def builtin (filename id ns fullname : String) (flags : Nat)
    (fns : List (String × String × String × (AMap → RMap))) : Res Plugin := do
  let p ← (Plugin.fresh filename "" "").config id ns fullname 0 (0x40000 + apiMinor4) flags
  .ok (registerAll p fns)

/-- The plugin table built by the constructor of `VSCore`, src/core/vscore.cpp:2044-2071 (before
automatic loading): the units std, resize and text. -/
def newCore (libPath : String) (std resize text : List (String × String × String × (AMap → RMap))) :
    Res Core := do
  let s ← builtin libPath "com.vapoursynth.std" "std" "VapourSynth Core Functions" 1 std
  let r ← builtin "" "com.vapoursynth.resize" "resize" "VapourSynth Resize" 0 resize
  let t ← builtin "" "com.vapoursynth.text" "text" "VapourSynth Text" 0 text
  .ok { plugins := insertNew t.id t (insertNew r.id r
          (insertNew s.id { s with readOnly := true } [])), log := [] }

/-- Calls of a program that concern plugins. -/
inductive Call where
  /-- `std.LoadPlugin` and automatic loading -/
  | load (filename forcedNamespace forcedId : String) (l : Lib)
  /-- `registerFunction` with the handle of a loaded plugin, src/core/vsapi.cpp:39-42 -/
  | register (plugin name args returnType : String) (func : AMap → RMap)
  /-- `configPlugin` with the handle of a loaded plugin, src/core/vsapi.cpp:34-37 -/
  | config (plugin identifier ns fullname : String) (pluginVersion apiVersion : Int) (flags : Nat)

/-- One call; a failed load is reported to the caller and changes nothing. -/
def Core.step (c : Core) : Call → Res Core
  | .load f n i l =>
    match c.loadPlugin f n i l with
    | .ok c' => .ok c'
    | .err e => .ok { c with log := c.log ++ [e] }
    | .fatal e => .fatal e
    | .ub => .ub
  | .register q n a r f =>
    match lookup q c.plugins with
    | none => .ub
    | some p =>
      let x := p.register n a r f
      .ok { plugins := update q x.1 c.plugins, log := c.log ++ x.2.2 }
  | .config q i n f v a fl =>
    match lookup q c.plugins with
    | none => .ub
    | some p =>
      match p.config i n f v a fl with
      | .ok p' => .ok { c with plugins := update q p' c.plugins }
      | .fatal e => .fatal e
      | .err e => .err e
      | .ub => .ub

/-- A history of calls. -/
def Core.run (c : Core) : List Call → Res Core
  | [] => .ok c
  | x :: t => do
    let c ← c.step x
    c.run t

/-! ## Manifests -/

/-- `std::string::find_first_of("\r\n", pos)`; `none` is `npos`. -/
def findNewline (s : List Char) (pos : Nat) : Option Nat :=
  match (s.drop pos).findIdx? (fun c => c = '\r' ∨ c = '\n') with
  | some i => some (pos + i)
  | none => none

/-- `std::string::find_first_not_of("\r\n", pos)`. -/
def findText (s : List Char) (pos : Nat) : Option Nat :=
  match (s.drop pos).findIdx? (fun c => ¬ (c = '\r' ∨ c = '\n')) with
  | some i => some (pos + i)
  | none => none

/-- The loop over the lines, src/core/vscore.cpp:1871-1877.  `substr` at `npos` throws
`std::out_of_range`, which nothing catches (`fatal`); `find_first_of` from `npos` finds
nothing. -/
def manifestLoop (s : List Char) : Nat → Option Nat → Option Nat → Res (List (List Char))
  | 0, _, _ => .ok []
  | _ + 1, none, none => .ok []
  | _ + 1, some last, none => .ok [s.drop last]
  | _ + 1, none, some _ => .fatal "std::out_of_range"
  | fuel + 1, some last, some pos => do
    let last' := findText s (pos + 1)
    let pos' := last'.bind (findNewline s)
    let r ← manifestLoop s fuel last' pos'
    .ok ((s.drop last).take (pos - last) :: r)

/-- The lines of a manifest, src/core/vscore.cpp:1867-1877.  `lastPos + 1` wraps to 0 if
`lastPos` is `npos`. -/
def manifestLines (s : List Char) : Res (List (List Char)) :=
  let last := findText s 0
  let pos := match last with
    | some i => findNewline s (i + 1)
    | none => findNewline s 0
  manifestLoop s (s.length + 1) last pos

/-- What a manifest asks for, src/core/vscore.cpp:1853-1896: at most 10000 bytes are read; `none`
if the file is rejected, else the names of the plugins to load (relative, without extension). -/
def manifest (contents : List Char) : Res (Option (List (List Char))) :=
  let s := contents.take 10000
  if s = [] then .ok none
  else do
    let lines ← manifestLines s
    match lines with
    | [] => .ok none
    | h :: t => if h ≠ "[VapourSynth Manifest V1]".toList then .ok none else .ok (some t)

end VS.Plugin

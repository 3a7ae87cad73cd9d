import Verif.FProps.Model
import Verif.Pix.Model

/-!
# Model: frames stored in frame properties

`ClipToProp` and `PropToClip` of src/core/simplefilters.cpp. A frame is given by the handle of its properties where the
filter works on the properties, and by a number where only the reference matters. `video p` is the format and the size of
the video frame `p`, and `none` for an audio frame.
-/

namespace VS.FProps
open VS VS.Map VS.Format

/-- Format, width and height of a video frame. -/
abbrev Video := Nat → Option (VFmt × Int × Int)

/-- `clipToPropGetFrame`, simplefilters.cpp:2058-2076: `src` is the frame of the first clip, `p` the one of the second. -/
def clipToProp (prop : Key) (last : Bool) (w : World) (src p : Nat) : Res (World × Nat) := do
  let r ← copyFrame w src
  let x ← setObj2 r.1 r.2 prop (some (p, true)) .videoFrame .audioFrame 0
  let w ← freeFrame last x.1 src
  .ok (w, r.2)

/-- `clipToPropCreate`, simplefilters.cpp:2078-2096: the video info of the result and the name of the property. -/
def clipToPropCreate (vi vi2 : VInfo) (prop : Option String) : Res (VInfo × Key) :=
  if ¬ Pix.isConstantVideoFormat vi ∨ ¬ Pix.isConstantVideoFormat vi2 then
    .err "ClipToProp: clips must have constant format and dimensions"
  else .ok ({ vi with numFrames := vi2.numFrames }, match prop with | some p => cstr p | none => "_Alpha")

/-- `PropToClipData`, simplefilters.cpp:2101-2107. -/
structure PropToClip where
  vi : VInfo
  prop : Key
  index : Int

/-- `propToClipGetFrame`, simplefilters.cpp:2109-2137: the frame that is returned. The format of an audio frame is read from
the wrong member of a union, src/core/vscore.h:469-472. -/
def propToClip (video : Video) (d : PropToClip) (last : Bool) (w : World) (src : Nat) : Res (World × Nat) := do
  let r ← mapGetFrame w src d.prop d.index true
  let w ← freeFrame last w src
  match r.1 with
  | none => .err "PropToClip: failed to extract frame from specified property"
  | some p =>
    match video p with
    | none => .ub
    | some (fmt, width, height) =>
      if ¬ Pix.isSameVideoFormat d.vi.format fmt ∨ d.vi.height ≠ height ∨ d.vi.width ≠ width then
        .err "PropToClip: retrieved frame doesn't match output format or dimensions"
      else .ok (w, p)

/-- `propToClipCreate`, simplefilters.cpp:2139-2178; `first` is the first frame of the clip or the error it had; it is
still in the cache or used by others afterwards or not (`last`). -/
def propToClipCreate (video : Video) (vi : VInfo) (prop : Option String) (index : Option Int) (last : Bool) (w : World)
    (first : Res Nat) : Res (World × PropToClip) :=
  if ¬ Pix.isConstantVideoFormat vi then .err "PropToClip: clip must have constant format and dimensions"
  else
    let prop := match prop with | some p => cstr p | none => "_Alpha"
    if prop = "" then .err "PropToClip: property name can't be an empty string"
    else if int64ToIntS (index.getD 0) < 0 then .err "PropToClip: index can't be negative"
    else match first with
      | .err m => .err ("PropToClip: upstream error: " ++ m)
      | .fatal m => .fatal m
      | .ub => .ub
      | .ok src => do
        let r ← mapGetFrame w src prop (int64ToIntS (index.getD 0)) true
        if r.2 ≠ 0 then .err ("PropToClip: no frame stored in property: " ++ prop ++ " index ")
        else match r.1 with
          | none => .ub
          | some p =>
            match video p with
            | none => .ub
            | some (fmt, width, height) => do
              let w ← freeFrame last w src
              .ok (w, ⟨{ vi with format := fmt, width := width, height := height }, prop, int64ToIntS (index.getD 0)⟩)

end VS.FProps

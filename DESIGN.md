# Formal model of vapoursynth in Lean 4

Source of truth: `/repo` (pinned commit, read as text). The model is in `lean/Verif/`, one directory
per part of the program. Each part is split into

* `Model.lean`   – definitions that follow the C++ code function by function, each with a citation,
* `Spec.lean`    – the small independent specification (plain lists, functions, arithmetic),
* `Lemmas.lean`  – helper lemmas,
* `Props.lean`   – the property theorems, one section per property id, each followed by an `example`
  showing that a concrete non-trivial case meets the hypotheses.

## Conventions

* C `int`/`int64_t` values are `Int`; operations whose overflow matters go through explicit range
  checks and signed overflow is a distinct outcome (`ub`), never a wrapped value.
* Errors returned through `RETERROR`/`mapSetError` are a distinct outcome (`err`), process aborts
  (`logFatal`, `assert`) are a distinct outcome (`fatal`).
* Pointers are abstract identifiers in an explicit heap.
* Reference counts are modelled explicitly where the property is about sharing or lifetime.

## Plan per property

| Id | What is modelled | How it is proved |
|----|------------------|------------------|
| C01, C02 | `VSArray` (single/vector representation), `VSMapStorage`, `VSMap` copy-on-write heap with reference counts, all map API setters/deleters | refinement of every operation to a dictionary of typed lists; refcount invariant by induction over operation histories |
| C03 | `propGetShared`, getters | decision logic proved outright |
| C04 | `remapColorRange`, `flipRangeProperty`, `mapGetIntArray` | round trip for scalars; refutation with a witness for arrays |
| C05, C06 | `VSPlaneData`, `VSFrame` constructors, `getWritePtr`, destruction | refinement to frames-as-values; refcount and byte-count invariants |
| C43 | frame geometry | same state as C05, sizes as an invariant |
| C07–C09 | `MemoryUse` | invariants by induction over histories, nondeterministic choices as inputs |
| C10–C12 | `VSCache` with its intrusive list (node pointers are keys) | representation invariant, refinement to a list of (key, frame) in recency order |
| C13–C18 | `VSThreadPool` bookkeeping as a transition system: contexts, notification lists, request counts, serial locks, cache | invariants over all reachable states; result equals recursive evaluation; progress by a measure on an acyclic graph. Condition variables and thread creation are C85–C88; timing is not modelled |
| C19–C21 | format queries, id packing, names | bit arithmetic, whole-table kernel evaluation lifted by lemmas |
| C44 | the version 3 format registry as a sorted table with its identifier counter | invariant over histories, initial table by kernel evaluation |
| C22 | rational helpers with 64 bit overflow as `ub` | gcd lemmas |
| C23, C24 | `split`, `parseArgString`, argument string printing, `checkValues`, `invoke` | round trip, decision logic |
| C25, C45, C46 | plugin table, loading, enumeration | invariant over histories |
| C47 | manifest scanning | refinement to the pieces between line ends |
| C26 | log buffer and handler set | refinement to delivered-message lists |
| C27–C32 | reorder filters: create functions and frame mapping | refinement to list operations |
| C33–C37 | audio filters: request phase and copy loops | refinement to sample sequences |
| C38 | node reference counting, deferred destruction list, core counter | invariant over release orders |
| C39 | `frameDoneCallback` state machine | invariant over completion orders |
| C40, C41 | JSON escaping, wave packing and headers | round trips |
| C48, C49, C50 | vspipe's video output: planes, y4m header, timecodes | rows of memory as lists of bytes; a reader for y4m files written independently; timecodes over the rationals, once exact and once with an arbitrary monotone rounding |
| C51, C52, C53, C54 | Expr: text, tree, optimizer, byte code, interpreter | one tree type for every arithmetic; stack machine as specification; invariant of the register renaming; the passes over the real numbers, where each rule is an equation, and over the rationals for counterexamples |
| C42 | consumer list and cache state | invariant over histories |
| C55, C56, C57, C58, C59, C60 | simplefilters.cpp: the filters that move pixels, on planes that are byte arrays with stride and bounds | every access is checked against the size of the plane, otherwise the outcome is undefined behaviour; the specification sees planes as pictures (functions of column and row); loop invariants for each copy loop |
| C61, C62, C63, C64 | simplefilters.cpp: the filters that change frame properties, as programs over the map model of C01 | each call of the map API is a step of the history, so C01 tells what it does to the dictionaries; loops over names and values by induction; the translation of wildcards to regular expressions is parsed and matched again and compared with an inductive definition of wildcards |
| C65, C66, C67, C68, C69 | mergefilters.cpp and the C versions of kernel/merge.cpp on the frame memory of `Pix` | a loop lemma says that a kernel writes every sample of a plane once, for all sizes and strides; the fixed point arithmetic of each kernel is compared with a rational mean by linear arithmetic, the magic numbers of the divisions by a general lemma on floor division; argument checks by cases |
| C70, C71 | lutfilters.cpp on the frame memory of `Pix`, with the samples behind the end of a row that are read and written | the table by induction over the list or the calls of the function; the loop lemma of `Point`; the rounded up width stays inside of the stride because of the alignment; argument checks by cases |
| C72, C73, C74 | genericfilters.cpp: the filters on single samples on the frame memory of `Pix`; double precision arguments as bit patterns with a value | the loop lemma of `Point`; the rounded argument from the error bound of the sum `x + 0.5` |
| C76, C77, C78, C80 | generic.cpp: the plain kernels on 3 x 3 samples; genericfilters.cpp: arguments, size checks, frames | one lemma for the borders; the stencil for all 256 masks; the median by the 0-1 principle (for every threshold the network works on booleans, all 512 cases by evaluation in the kernel); the root bounded from below and above by squares |
| C79 | generic.cpp: the plain convolution kernels; genericfilters.cpp: their arguments | index arithmetic against one mirrored index; sums of products by lists, no overflow from the bounds of coefficients and samples; error bounds of single precision multiplied out |
| C75 | genericfilters.cpp: Levels | error bounds of single precision through quotient, power and multiplication; induction over planes and table entries |
| C81 | averageframesfilter.cpp | sums by induction over the weights with a bound that excludes overflow; loops over scene marks by induction; error bounds of single precision |
| C82 | simplefilters.cpp, kernel/planestats.cpp | loops as folds over the list of samples, minimum, maximum and sums by induction with a bound that excludes wrapping; error bounds of double precision; validity of names by characters |
| C83 | boxblurfilter.cpp | moving sums against sums over the window by induction on the column, for any way to add; the ring buffer of the passes in place as an invariant on what is still to be read; division by multiplication from the bounds on the remainder; the graph of filters step by step with a relation between frames of the clip and frames of a node |
| C84 | float16_helper.h | numbers as integers in units of the smallest subnormal number; the order of the bits is the order of the numbers, and the middle of two half precision numbers has a single precision bit pattern; rounding of the product defined exactly, it is exact or too small to matter |
| C85–C88 | threads of `VSThreadPool` on top of the scheduler: where each thread is, the counts, reserved threads, the lock around callbacks, stop | one invariant relating counts and places; if all threads are stuck nothing can be started, by the step that put the last one to sleep; with ranks this leaves no unanswered request; the number of threads by a sum of counts; refutations by computed schedules |
| C89, C90 | audiofilters.cpp: AudioGain, AudioMix | double arithmetic as exact arithmetic followed by a rounding with the usual conditions (`DFloats`); rounding, limiting and conversion for one sample, sums by induction with an error bound, then the loop over samples as an invariant on the cells written so far |
| C91 | textfilter.cpp: all text filters | the lines as a relation (breaks, pieces, capacity) with exactly one solution; planes as pictures, a character as a rectangle on it; the fold over all characters evaluated at a point, with characters that do not overlap |
| C92 | simplefilters.cpp: BlankClip | what was asked for as functions of the arguments and the template; the sample of a color as the nearest number of the format, independent of the conversion; frames as filled planes and exactly two properties |
| C93 | simplefilters.cpp: AssumeFPS | the rate as a rational number in lowest terms; the frame as the frame of the input except for two properties |
| C94 | simplefilters.cpp: FrameEval, ModifyFrame, with the part of the core that calls a filter | requests as a transition system, the function as the environment; invariant: maps empty between calls, one call per request, one reference per waiting request |
| C95 | audioresampling.cpp: AudioResample with a change of rate or channels | span of input samples per output frame, gathering, mixing and filter loops against whole signals surrounded by silence; ratio in lowest terms by Nat.gcd; bounds on all 64 bit products |
| C96 | audioresampling.cpp: AudioResample as format conversion, arguments | single sample against nearest step of scaled value plus dither, with rounding of doubles as a parameter; lifted to frames |
| C97 | audioresampling.cpp: buildMixMatrix | the calls of `add` as a list per input channel; shape by cases over the rules, symmetry by pairing the branches, rounding error of sums and quotients |
| C98 | simplefilters.cpp: PEMVerifier | model of the loops with early exit and of the argument checks; lemma: a loop that only checks stops at the first error; f32 of the model equals the IEEE value; partial: three refuted parts |
| C99 | fourcc.cpp | model of the table and all functions; facts about the entries by evaluation of the whole table, the rest for all dimensions; `bitblt` from C48; partial: libp2p, three refuted parts |
| C100 | Expr: creation and frames | reading of all clips with their own strides and types by induction over the clips, the interpreter through C52 (`generate_run`), frames through the lemmas of Lut2 and AverageFrames |
| C101 | Expr: accesses of the compiled code | invariant of the pointer loop by induction over the iterations; the bytes of a group divide the alignment of the frames for all combinations of flags (finite cases), so the last group ends within the stride |

## Trusted base

Lean's kernel and the three standard axioms (`propext`, `Classical.choice`, `Quot.sound`) at most.
No `sorry`, no own axioms, no `native_decide`/`bv_decide`. The correspondence between the C++ text and
the Lean definitions is by reading; each definition cites the lines it models.

## What is modelled so far

| Directory | Code | Left out or simplified |
|-----------|------|------------------------|
| `Base` | C integer arithmetic with overflow as undefined behaviour, call outcomes, a heap of cells | – |
| `Rational` | `VSHelper4.h` `muldivRational`, `addRational`, `reduceRational`, `int64ToIntS` | – |
| `Filter`, `Reorder` | reorderfilters.cpp: create functions (argument checks) and frame mapping of Trim, Reverse, Loop, Interleave, SelectEvery, Splice, DuplicateFrames, DeleteFrames, FreezeFrames | frame contents are opaque values; the request/ready protocol is collapsed to a function of the requested inputs |
| `Audio` | audiofilters.cpp: AudioTrim, AudioSplice, AudioLoop, AudioReverse, ShuffleChannels, SplitChannels, AssumeSampleRate, silent BlankAudio, and the core's frame length check | the resampler, generated waveforms (AudioGain and AudioMix: `Gain`) |
| `Map` | vscore.h arrays, storage, `VSMap`, vsapi.cpp map functions, `_ColorRange` alias | calls are atomic; allocation never fails |
| `Cache` | `VSCache`, `setCacheMode`, `setLinear`, consumer bookkeeping, cache tuning actions | calls are atomic (the code holds `cacheMutex`); `notifyCaches`' choice of victims is an arbitrary input |
| `Memory` | memoryuse.cpp: whole allocator, sequential and with all thread schedules | per-thread call tracking, debug statistics; the system allocator is an environment that returns fresh memory or nothing |
| `Frame` | vscore.cpp: VSPlaneData, all VSFrame constructors, getReadPtr/getWritePtr, add_ref/release; on top of the `Memory` model | frame properties, frame guard, reference debugging; calls are atomic |
| `Format` | vscore.cpp: all format queries, checks, identifiers, names, the version 3 registry and conversions | casts of integers to enumerations keep the value |
| `Plugin` | vscore.cpp: signatures, registration, argument checks, invocation, plugin table, loading, enumeration, manifests | opening a library and its entry point are inputs; path handling, directory scanning; a function behind a name is any function of its arguments |
| `Log` | vscore.cpp: log handlers, kept messages, logMessage; vslog.cpp: version 3 handlers | calls are atomic (recursive mutex); handlers may log, as a finite tree given as input; version 3 handlers do not log |
| `Pool` | vsthreadpool.cpp: runTasks, startExternal, startInternalRequest, returnFrame; vsapi.cpp: getFrameAsync, requestFrameFilter, getFrameFilter, releaseFrameEarly, cacheFrame; vscore.cpp: VSFrameContext, getFrameInternal | a step is a critical section of `taskLock` or the return of a filter call, in any order; filters are arbitrary relations; caches answer with any part of what was produced; the memory prediction is an arbitrary input; blocking `getFrame` and reference counts of contexts are left out |
| `Life` | vscore.h: VSNode add_ref/release; vscore.cpp: ~VSNode, destroyFilterInstance, filterInstanceCreated/Destroyed, freeCore | any number of threads with explicit call stacks, a step is what lies between two atomic accesses; a free function gives back the references of its data and may do what user code may do; filters whose constructor throws, caches, waiting and messages in `freeCore` are left out |
| `Pipe` | vspipe.cpp: outputNode, frameDoneCallback, the order of writes of outputFrame | contents of frames; one write for each plane and for each audio frame; callbacks are two steps, counting and the rest; option parsing, progress display |
| `Json` | vspipe/vsjson.cpp: all functions, on the `Map` model; vspipe.cpp: brackets and lines of the JSON file | the text `std::to_chars` gives for a double is an input |
| `Wave` | common/wave.cpp: all functions; vspipe.cpp: audio part of outputFrame, initializeAudioOutput | bytes of memory, both byte orders; writing to the file succeeds (failures: `Pipe`) |
| `Video` | vspipe.cpp: video part of outputFrame, initializeVideoOutput, timecodes; VSHelper4.h: bitblt | doubles are rationals with a rounding function; the text of a timecode is not modelled |
| `Expr` | expr/expr.cpp: all functions from tokenize to compile; exprfilter.cpp: ExprInterpreter | arithmetic is a parameter; conversion of texts to numbers is a parameter; the code for x86 (jitcompiler_x86.cpp), checks of the arguments and planes; parent pointers are not stored, the rule for `x * 2` that looks at them takes its answer from a parameter |
| `Pix` | simplefilters.cpp: Crop, CropRel, AddBorders, ShufflePlanes, SplitPlanes, SeparateFields, DoubleWeave, FlipVertical, FlipHorizontal, Turn180, StackVertical, StackHorizontal, Transpose, Turn90, Turn270: create functions and frames; newVideoFrame, newVideoFrame2, bitblt, memset and the check of returned frames | planes are byte arrays of exactly stride times height bytes, new memory has arbitrary contents; rows are shorter than 2 GiB; SSE2 transposition of one block is the plain transposition of that block; reading of arguments from the map; scheduling (`Pool`) |
| `FProps` | simplefilters.cpp: SetFrameProp, SetFrameProps, SetFieldBased, RemoveFrameProps, CopyFrameProps, ClipToProp, PropToClip: create functions and the work on the properties of each frame; copyFrame and freeFrame as far as properties are concerned | planes; std::regex: the part of the ECMAScript grammar that the translated patterns use (characters, escapes, `.`, `.*`); reading of arguments from the map; requests (`Pool`) |
| `Point` | what point filters share: samples in memory, src/core/filtershared.h: getPlanesArg, is8to16orFloatFormat and others, newVideoFrame2 with missing sources | - |
| `Merge` | mergefilters.cpp: all filters, their create functions and frames; kernel/merge.cpp: all C kernels for integers bit by bit with their unsigned types | kernels for float: a parameter (`Floats`), rounding of `weight * 32768.f + .5f` up to an error of 2^-24; the calls of the resizer for smaller masks: the resized clips are inputs; SIMD versions |
| `Lut` | lutfilters.cpp: the tables, create functions and frames of Lut and Lut2 in plain C++ | conversion of double to float: a parameter (`Conv`); AVX-512 and NEON versions |
| `Pixel` | genericfilters.cpp: argument lists per plane, Invert, InvertMask, Limiter, Binarize, BinarizeMask | arithmetic on float samples: a parameter (`Floats`), of which only the rounding of `x + 0.5` is used |
| `Generic` | genericfilters.cpp: genericCreate and genericGetframe for Minimum, Maximum, Median, Deflate, Inflate, Prewitt, Sobel; kernel/generic.cpp: their plain kernels | SIMD kernels; arithmetic on float samples: a parameter (`Floats`), with the error bounds of single precision for the gradient of integers |
| `Generic` (Conv*) | Convolution: arguments, checks, the kernels for 3 x 3, larger squares, rows, columns and both | SIMD kernels; arithmetic on float samples: a parameter (`floatConv`) of the samples under the matrix |
| `Levels` | Levels: arguments, checks, tables, frames | `std::pow`: a parameter with its values for 0, 1 and the exponent 1; arithmetic on float samples: a parameter (`levelsF`) |
| `Average` | AverageFrames: arguments, checks, requests, scene changes, integer kernel | arithmetic on float samples: a parameter (`avg`); the kernels for a fixed number of frames are taken to be the general ones with unrolled loops |
| `Stats` | PlaneStats: arguments, checks, integer kernels, properties | arithmetic on float samples: parameters (`fmin`, `fmax`, `favg`, `fdiff`); vectorized kernels |
| `Blur` | BoxBlur: arguments, checks, division, kernels for any radius and for radius 1, passes, the filters it is made of (with Transpose and ShufflePlanes of `Pix`) | arithmetic on float samples: a parameter (`Floats`), every operation on its own; all frames of a node are computed, not only those that are requested |
| `Half` | float16_helper.h: halfToFloat, floatToHalf without hardware support, isInfHalf | the variant with `_Float16`: the compiler's conversion; single precision subtraction and multiplication are defined as in IEEE 754 for the operands that occur |
| `Work` | vsthreadpool.cpp: runTasks, wakeThread, spawnThread, startExternal, returnFrame, setThreadCount, destructor; vsapi.cpp: getFrame, getFrameAsync: threads, sleeping, waking, blocking calls, lock around callbacks (on top of `Pool`) | a step is the code between two waits for a lock, a condition variable or user code; `notify_one` wakes any one sleeper, spurious wake-ups may come at any time; what is known about memory is an arbitrary input each time; joining of ended threads and log messages are left out; `waitForDone` is not modelled |
| `Gain` | audiofilters.cpp: intSampleRange, quantizeIntSample, AudioGain, AudioMix: arguments, all samples, clipping | rounding of doubles: a parameter with conditions (monotone, relative error 2^-53, exact for 53 bits), with or without contraction of multiply and add; arithmetic on float samples: a parameter; the sign of zero; which message is given if several arguments are wrong; the text of warnings |
| `Text` | textfilter.cpp: sanitise_text, split_text, scrawl_text with its character functions, textGetFrame, textCreate | the texts of ClipInfo, CoreInfo and FrameProps and the contents of the font: parameters; CoreInfo without a clip |
| `Blank` | simplefilters.cpp: color conversion, blankClipCreate, blankClipGetframe, assumeFPSCreate, assumeFPSGetframe | rounding of double to float: a parameter with values in the format; `keep` as one frame made once |
| `Eval` | simplefilters.cpp: frameEvalGetFrame*, modifyFrameGetFrame; requestFrameFilter, getFrameFilter, the frame check of the core | node graph: nodes are numbers; other values in the maps; create functions |
| `Verif/Resample` | src/core/audioresampling.cpp | all of creation and both get frame functions; filter coefficients, `float` arithmetic and conversion to `float` are parameters; log messages and frame properties left out |
| `Pem` | simplefilters.cpp: PEMVerifier: arguments, bounds, check of all samples, message | conversion of bounds from double to float, the text of `%f`, `lround` of a NaN: parameters; the name of the format in the message |
| `Fourcc` | common/fourcc.cpp | libp2p: only its parameters; `assert` ends the program; a character constant has its first character in the most significant byte, as with the usual compilers |
| `ExprFilter` | exprfilter.cpp:170-376: checks of clips, output format and expressions, choice of planes, frame function with the interpreter | the results of the just-in-time compiler (its accesses: C101), request patterns of dependencies, text of messages of the translation |
| `ExprFilter` (Jit) | jitcompiler.cpp:65-90, jitcompiler_x86.cpp: choice of the compiler, loads, stores and advance of pointers; exprfilter.cpp:186-222: rows | arithmetic and encoding of the compiled code, table of constants |

## Findings

Places where the code does not do what the property says. Each is a theorem with a concrete witness.

* `addRational` does not reduce the sum when the denominators are equal; `reduceRational` with
  `INT64_MIN / -1` is undefined (C22).
* `_ColorRange` read through `mapGetIntArray` is not converted (C04).
* `Interleave` with `extend=1` overflows `int` for long clips (C29).
* `AudioTrim` with `first + length` above `INT64_MAX` overflows (C33).
* `BlankAudio` with `keep=1` dies on clips whose last frame is short (C36).
* Automatic growth of a cache overflows `int` after `setCacheOptions` with a size within two of
  `INT_MAX` (C11).
* Returning a small buffer does not trim the pool, so memory can stay over the limit with a non-empty
  pool (C08). Sizes within 4160 bytes of `SIZE_MAX` wrap around in release builds (C07).
* Two threads returning the last buffers after `freeCore` delete the allocator twice; the header
  forbids this use (C09).
* `newVideoFrame2` compares width and height of a source plane but not its sample size, so a frame can
  get a buffer smaller than stride times height (C43). `newAudioFrame` takes more samples than a channel
  has room for (C43). Both need a caller that breaks the intent of the API.
* A pointer from `getWritePtr` kept across `copyFrame` writes to both frames (C05); filters must ask
  again.
* A `VSVideoFormat` with colour family undefined passes the struct check whatever its other fields hold,
  and `queryVideoFormat` answers true for undefined with any other arguments (C20).
* `registerFormat` called with a number that is no version 3 colour family can compute an identifier that
  is taken and return the other format (C44).
* A signature may declare the same argument name twice (C23_duplicate_refuted).
* `any` is accepted in version 3 signatures but the signature reported for the function is then `:;`,
  which the parser itself rejects (C23_any_v3_refuted).
* The built-in units resize and text are configured without `pcModifiable` but their read-only flag is never
  set (only std is locked), so any program can add functions to them (C46_builtin_refuted).
* A `manifest.vs` that contains nothing but line ends makes `loadPluginManifest` call `substr` with `npos`;
  the exception is not caught and the process ends (C47_newlines_refuted). Manifests are silently cut at
  10000 bytes (C47_long_refuted).
* `VSPlugin::invoke` reads the function table without the lock that `registerFunction` takes; this is a data
  race for modifiable plugins (noted, not modelled).
* If a handler logs while it handles a message, handlers called after it see the two messages in the other
  order (C26_nested_order_refuted); every message still arrives exactly once (C26_received).
* Messages logged through the version 3 function reach only version 3 handlers and are not kept for later
  handlers (C26_version3_separate). A version 3 handler that logs would lock a non-recursive mutex twice
  (noted, not modelled).
* `getFrameAsync` with a frame number outside the clip still calls the filter, with reason `arError` and that
  number, before the callback gets the error (C16_first_initial_refuted). For a parallel-requests filter this call
  is made without the node's mutex.
* A filter can fail with an empty message, which the callback then receives (C15_message_nonempty_refuted).
* In `runTasks` the branch for a frame returned while requests are outstanding cannot be reached (noted).
* `releaseFrameEarly` does not limit the frame number to the last frame as `requestFrameFilter` does, so a
  release with a number beyond the end has no effect (noted).
* A filter that declares a dependency without keeping its own reference to it is freed after that dependency
  (C38_order_refuted), and a chain of such filters is destroyed by recursion as deep as the chain
  (C38_deep_refuted). The filters in `src/core` keep their own references; for these the order holds and at most
  four calls are nested.
* vspipe's main thread reads the frame counters without the lock under which callbacks run, and a callback counts a
  frame before it writes it. If the main thread comes to wait just then, it closes the files before the last frame is
  written (C39_early_exit_refuted).
* A gray clip with itself as alpha clip is accepted by `set_output`, but vspipe tells the two apart by the node pointer,
  so it waits forever (C39_alias_refuted).
* When trimming to the requested range fails, vspipe frees the map with the error twice; the alpha clip before trimming
  is never freed (src/vspipe/vspipe.cpp:1192-1217, noted, not modelled).
* vspipe's JSON output is not JSON for some property maps: a node, frame or function (C40_reference_refuted), a value
  other than integers under `_ColorRange` (C40_range_refuted), infinities and not-a-numbers (C40_nan_refuted) and data
  marked as UTF-8 that are not (C40_invalid_utf8_refuted). Data marked as UTF-8 are cut at the first zero
  (C40_zero_refuted). Doubles from 1e100 on do not fit into the buffer of `doubleToString`, whose failure is not
  checked (C40_large_float_refuted). For audio the objects are written without the enclosing brackets
  (C40_audio_refuted).
* Wave files with data of odd size lack the padding byte of RIFF (C41_padding_refuted). The bytes for each second are
  cut to 32 bits for sample rates the core accepts (C41_rate_refuted).
* y4m headers do not distinguish gray integer and gray floating point clips of the same depth (C49_gray_float_refuted).
* The optimizer of Expr drops the constant of a sum without other terms: `x sqrt x sqrt *`, `x 2 pow x *` are 1 for every
  `x`, `x x - 3 +` is 0 (C54_constant_refuted). It takes square roots of products factor by factor:
  `x 128 - dup * sqrt 2 /` becomes `(x - 128) * 0.5` and is 0 instead of 14 for `x = 100` (C54_sign_refuted). `0 x pow` is 0
  for `x = 0` (C54_zero_power_refuted). A constant exponent beyond the range of `int` is converted to `int`, which is
  undefined (C54_large_exponent_refuted); an exponent of 10^9 is expanded to as many multiplications (noted).
* `combinePowerTerms` never reports a change, because its variable is shadowed (noted). `dup-0` is accepted (noted).
* Crop computes `height + y` and `width + x`, CropRel `width - left - right`, with `int`; arguments near the limits of `int`
  overflow (C55_crop_overflow_refuted). So do the sizes of AddBorders (C56_borders_overflow_refuted), StackVertical and
  StackHorizontal (C58_stack_overflow_refuted) and DoubleWeave (C60_weave_overflow_refuted).
* ShufflePlanes ignores that there is no format if the first plane is 32 times as wide or high as the others: the result is
  a clip without format whose frames have no planes (C59_shuffle_refuted). SplitPlanes does not look at the error of
  ShufflePlanes: for a clip with constant format but changing size the process ends (C59_split_refuted).
* SeparateFields computes the double frame rate and half of the duration with signed overflow for denominators or
  numerators above 2^62 (C60_rate_refuted, C60_duration_refuted). DoubleWeave cannot make the last frame of separated
  fields unless the order is given (part of C60_separate_weave).
* The transposition adds negative strides by dividing an unsigned number; this works by address wraparound only (noted).
  `areValidDimensions` is never used by the filters (noted). `isValidVideoInfo` accepts a frame rate with denominator 0 and
  any numerator (noted).
* RemoveFrameProps passes `mapDeleteKey` a pointer to the name inside of the map itself; after `erase` has freed it,
  `mapDeleteKey` compares it with `_ColorRange` (vsapi.cpp:497-503, simplefilters.cpp:2344-2346). This is a use after free
  whenever two properties match (C62_two_ub), and already for one if the properties are not shared (C62_remove_refuted).
* `RemoveFrameProps("_ColorRange")` does not remove the color range (C62_colorRange_refuted). CopyFrameProps of
  `_ColorRange` exchanges 0 and 1 if there are several values (C63_colorRange_refuted) and ends the process if `_Range` is a
  string (C63_colorRange_fatal_refuted).
* SetFrameProp, ClipToProp and PlaneStats accept names that no property can have and set nothing
  (C61_name_refuted). SetFrameProps cannot set a property named `clip` (noted).
* PropToClip reads the format of an audio frame as if it were a video frame (C64_audio_refuted).
* Noted only: ShuffleChannels does not check that channel 0 exists; AudioSplice can overflow only with more than a million
  clips; deleting the key `_Error` of a map with an error makes mapGetError end the process; copyMap does not copy the error
  flag; a null reference stored in a map is undefined behaviour when read; the last chunk of a W64 file is not padded to 8
  bytes; the length of BlankClip is computed with `fpsNum * 10`, which can overflow.
* Merge writes a fourth weight behind the end of an array before it checks the number of weights
  (mergefilters.cpp:394-409, C65_many_weights_refuted).
* MaskedMerge does not compare the sample type of the mask: a mask with half floats is taken for a clip with 16 bit integers
  (C66_mask_type_refuted).
* MergeFullDiff of 16 bit clips adds in `int`: samples far beyond the 17 bits of the format overflow
  (C69_out_of_range_refuted).
* Lut accepts to change the number of bytes of the samples of only some planes; the other planes are those of the source,
  and the frame has less memory than its format needs (lutfilters.cpp:75-79, vscore.cpp:235-240, C70_planes_refuted).
* A function that fails with an empty message is taken for a success by Lut: the table stays uninitialised
  (lutfilters.cpp:165-198, 217, C70_silent_error_refuted).
* Lut2 does not compare the number of planes: for a clip with three planes and a gray clip it reads planes that do not exist
  (lutfilters.cpp:576-580, C71_planes_refuted).
* Limiter and Binarize do not refuse the argument -1 for integer clips: -1 + 0.5 is cut off towards zero
  (genericfilters.cpp:78-80, C73_negative_refuted).
* A NaN or infinite argument of Limiter and Binarize is converted to int64_t, which is undefined behaviour
  (genericfilters.cpp:78, C73_nan_refuted).
- **Convolution with a tiny divisor** (genericfilters.cpp:1009-1015). A divisor below about 2^-128 is finite and not 0, so it is accepted, but its inverse is infinite in single precision. A flat area with a matrix whose sum is 0 then gives 0 times infinity, and the NaN is passed to `lrint`, whose result is unspecified. `C79_convolution` states the value for divisors of at least 2^-127.
- **Levels with an infinite range of the output** (genericfilters.cpp:1470, 1474; `C75_defined_refuted`). `min_out` and `max_out` are checked to be finite, but not their difference: with max_out=3e38 and min_out=-3e38 it is infinite, 0 times infinity is NaN, and `std::min`/`std::max` pass a NaN in their first argument through, so NaN is cast to an integer: undefined behavior.
- **AverageFrames refuses scale=2147483648** (filtershared.h:51-58; `C81_scale_refuted`). `floatToIntS` compares with `static_cast<float>(INT_MAX)`, which is 2^31. So the number 2^31 is not limited to INT_MAX, and its cast to `int` gives INT_MIN: the scale is refused as not positive, while 2147483000 and 4294967296 are accepted.
- **PlaneStats accepts names that cannot be set** (simplefilters.cpp:2039-2044 and 1995-2012; `C82_name_refuted`). `prop` is not checked. With `prop="a b"` the filter is created, `mapSetInt` and `mapSetFloat` fail for each frame, their result is ignored, and the frames come without statistics.
- **BoxBlur ignores `planes` for clips with a single plane** (boxblurfilter.cpp:628-633; `C83_planes_refuted`). With `planes=[1]` a gray clip should be left alone, as other filters do, but it is blurred.
- **One bad float sample spoils the rest of the picture in BoxBlur** (boxblurfilter.cpp:180-334; `C83_reach_float_refuted`). The sum that moves along the row never gets rid of a NaN or an infinite sample: everything to the right of it becomes NaN, and everything below that with a vertical pass, however small the radius is.
- **Without F16C, results in half precision are rounded differently** (float16_helper.h:64-94; `C84_even_refuted`). Comments in kernel/generic.cpp:39, 264 and kernel/merge.cpp:110 say that `floatToHalf` rounds to nearest even, as the native conversion does. The variant for compilers without hardware support rounds ties away from zero: 1 + 2^-11 becomes 0x3C01 instead of 0x3C00. The C++ kernels and the vectorized ones for the same filter thus give different samples.

- **Color below text** (textfilter.cpp:267-270; `C91_chroma_refuted`). The chroma rectangle of a character is `dest_x >> subSamplingW` with the width `8 * scale >> subSamplingW`. With centred or right aligned text `dest_x` can be odd, then the color of the last column (or row) of the text is not erased; with a subsampling of 16 and scale 1 nothing is erased at all.
- **BlankClip with a huge frame rate** (simplefilters.cpp, blankClipCreate; `C92_overflow_refuted`). Without clip and length the length is computed from `fpsNum * 10`, a signed overflow for rates above 2^63 / 10.
- **Colors of 32 bit formats** (simplefilters.cpp, doubleToIntPixelValue; `C92_color_refuted`). The check compares the saturated 32 bit result with the maximum of the format, so that with 32 bit integer formats every value that is too large becomes 4294967295 instead of an error. AddBorders shares the code.
- **BlankClip with a template of variable frame rate.** Giving only `fpsnum` with such a clip leaves the denominator 0 and the result has a variable frame rate again, without an error (part of `C92_blank`: `Spec.fps`).
- **AudioGain with an infinite gain** (audiofilters.cpp:461-463, 508; `C89_any_gain_refuted`). The gain is not checked. Infinity times a zero sample is NaN, which passes `std::clamp` and is cast to an integer: undefined behaviour. The comment above `quantizeIntSample` says a wild gain cannot do this.
- **AudioMix with very large finite weights** (audiofilters.cpp:668, 735; `C90_any_weights_refuted`). Two weights of 2^1023 with opposite signs give infinity minus infinity, with the same result.
- **Clipping behind sample 2^31** (audiofilters.cpp:500-503, 547-550, 674-677, 741-744; `C89_any_length_refuted`, `C90_any_length_refuted`). The numbers in the message are computed in `int`, which overflows from frame 699050 on; such clips are legal (12.4 hours at 48 kHz).
- **A filter that calls `getFrame` can wait forever when memory is short** (vsthreadpool.cpp:181-186, 348-376; `C85_any_memory_limit_refuted`). The waiting filter counts in `processingThreads`. The thread that takes its place may therefore refuse the frame it waits for, since it may not fit into memory, and then sleeps although no other call is in progress: nobody wakes it up again. The documentation says that `getFrame` is meant for applications and initialization, but the pool reserves threads for such calls.
- **Callbacks that call `getFrame` can wait forever** (vsthreadpool.cpp:473-484, vsapi.cpp:128-146; `C85_blocking_callbacks_refuted`). The callback of `getFrameAsync` runs with `callbackLock` held. With one thread, the thread that takes its place may finish another request first and then waits for that lock, before it gets to the frame the callback waits for.
- **`waitForDone` may return too early** (vsthreadpool.cpp:515-519; not a theorem). `idleThreads` counts threads that were notified and have not got `taskLock` yet, so the wait can end while work is queued. Its callers only use it where no requests are allowed.
- **Audio from FrameEval or ModifyFrame** (simplefilters.cpp:1382-1608; `C94_audio_refuted`). Neither filter checks the type of the node or frame that the function returns. The format and the size of an audio frame are then read as those of video: the other member of a `union`, and a height that no constructor of audio frames initializes. With a declared format the check still fails; with a clip of variable format and size the audio frame is returned, and `getFrameInternal` ends the process with a fatal error instead of an error of the request.
- **NaN samples to integer** (audioresampling.cpp:104-109; `C96_any_sample_refuted`). `std::clamp` hands NaN through, and its conversion to an integer type is undefined behaviour. Float sources may contain NaN.
- **Extreme rate ratios** (audioresampling.cpp:265-268; `C95_any_ratio_refuted`). The number of filter taps is converted from `double` to `int` before it is compared with the limit: from a ratio of 2^25 to 1 on the value is no `int`, which is undefined behaviour instead of the error message about impractically long filters. Doubling it overflows from 2^24 to 1 on.
- **PEMVerifier on 32 bit float clips without `upper` has undefined behaviour** (simplefilters.cpp:1867): `1 << vi->format.bitsPerSample` is evaluated for float formats too, and shifts an `int` by 32 (`C98_single_refuted`). The result is never read for float clips; what a compiler makes of it was not tested.
- **PEMVerifier accepts NaN as bound** for float clips, and then every finite sample is legal (`C98_nan_refuted`). A lower bound above 1 without `upper` is accepted too, and every frame fails (`C98_crossed_refuted`).
- **8 bit gray clips report 24 bits per pixel** (fourcc.cpp:173-176): `BitsPerPixel` adds chroma for every format without fixed number, also for Y800, while the image has 8 bits per pixel (`C99_gray_refuted`). The number goes to `biBitCount` (vsvfw.cpp:962).
- **`BMPSize` overflows for large clips** (fourcc.cpp:161): 40000x20000 RGB needs 3.2 GB, computed as `int` (`C99_overflow_refuted`). The result is compared with the size of the caller's buffer (vsvfw.cpp:894-903) before the frame is written.
- **The format is tested for mode 0 only** when a script is opened in vfw (vsvfw.cpp:456-468); with `alt_output` set, an accepted format can be without a code (`C99_alt_refuted`). `set_output` takes any number (vapoursynth.pyx:2423-2436).
- **Expr and colour families.** The documentation names subsampling and depth as the only restrictions of the output format; the program also requires the colour family of the first clip (C100_refused). The families of the input clips are not compared: RGB and YUV444 can be mixed.
The model of the optimizer was run, with 32 bit floating point numbers, on the 69 expressions of `/repo/test/expr_compiler`;
it prints the reference output there. This run is a test of the model and not part of any proof.

## The log of wrong programs

`seeded/LOG.jsonl` has one line per logged attempt.

- `theorems_failed`: declarations at which Lean reported an error. This is what was observed.
- `theorems_not_rechecked`: property theorems in modules that import a failing module. Lean did not reach them. It is not known that they fail. The list was derived from the import graph.
- `note`: "the edited model did not compile" marks attempts that tested no theorem. They must not be counted as caught.

Correction: up to commit 45fd8e7 the second field was called `depending_theorems_no_longer_proved`. The script filled it with every theorem it had been given whenever anything failed. In 299 of 1231 lines it named theorems whose modules do not import a failing one (1424 names). These names were removed and the field was renamed. Nine lines counted an edit that did not compile as caught; they now have a note. For lines written before the change, modules were found by the present place of each name, so the lists can be too short. No line records a survivor that was left as it is. For the older sandboxes it can no longer be checked whether such attempts were left out.

{"id": "C01", "title": "Property maps behave like ordinary key/list dictionaries", "statement": "After any sequence of mapSetInt/Float/Data/Node/Frame/Function (replace or append), mapSet*Array, mapSetEmpty, mapDeleteKey, clearMap and mapSetError calls on a map, every read (mapNumKeys, mapGetKey, mapNumElements, mapGetType, mapGet*) returns exactly what a plain dictionary from key to (type, list of values) would return; a failed set changes nothing and no call affects another key.", "quantifier": "every map, every finite sequence of map API calls, every key, index and value", "why_tests_cant": "The storage switches representation with the number of elements and is shared between copies, so the answer depends on the whole call history; unit tests only sample a few short histories.", "anchors": ["include/VapourSynth4.h:VSAPI", "src/core/vscore.h:VSMap", "src/core/vscore.h:VSArray", "src/core/vsapi.cpp:propSetShared", "src/core/vsapi.cpp:mapDeleteKey"]}
{"id": "C02", "title": "Copies of a map are independent", "statement": "After a map has been copied (copyMap, frame property copies, plugin argument passing) any later change made through one of the copies is invisible through all others, and storage is released exactly when the last holder is freed.", "quantifier": "every interleaving of creations, copies, mutations and frees over any number of maps sharing storage", "why_tests_cant": "Copy-on-write sharing creates aliasing whose effects only show in particular interleavings of copies and writes.", "anchors": ["src/core/vscore.h:VSMap::detach", "src/core/vscore.h:VSMap::copy", "src/core/vscore.h:VSMapStorage", "src/core/intrusive_ptr.h"]}
{"id": "C03", "title": "Map reads report exactly the right error", "statement": "A map read with an error pointer succeeds exactly when the map is not an error map, the key exists, the index is in range and the type matches; otherwise it reports the documented error kind in the order error-map, unset, index, type; without an error pointer each such failure is fatal.", "quantifier": "every map content, key, index and requested type", "why_tests_cant": "The outcome is a decision over four independent conditions and an unbounded index; tests sample combinations.", "anchors": ["src/core/vsapi.cpp:propGetShared", "src/core/vsapi.cpp:mapGetInt", "src/core/vsapi.cpp:mapGetIntSaturated"]}
{"id": "C04", "title": "The legacy _ColorRange key is a faithful view of _Range", "statement": "For every value written through one of the two names with the integer API, reading through the other name gives the same colour range with the inverted encoding, and reading back through the same name gives the written value, for single values and for arrays.", "quantifier": "every written value, every array length, both names", "why_tests_cant": "The translation is applied in some accessors only; whether all paths agree needs an argument over all accessors and lengths.", "anchors": ["src/core/vsapi.cpp:remapColorRange", "src/core/vsapi.cpp:flipRangeProperty", "src/core/vsapi.cpp:mapGetIntArray"]}
{"id": "C05", "title": "Frames are copy-on-write: writing one never changes another", "statement": "Pixels obtained through getWritePtr of one frame are never visible through any other frame, however planes were shared by copyFrame, newVideoFrame2 or shuffles, and getReadPtr always shows the last write made to that frame's plane.", "quantifier": "every history of frame creation, copying, plane sharing, writing and freeing, over any number of frames", "why_tests_cant": "Plane sharing is by reference count; a missed copy shows only when a particular pair of frames share a plane at the time of a write.", "anchors": ["src/core/vscore.cpp:VSFrame::getWritePtr", "src/core/vscore.cpp:VSPlaneData", "src/core/vsapi.cpp:newVideoFrame2"]}
{"id": "C06", "title": "Reported frame memory is exact", "statement": "At every point the memory use reported for the core equals the total size of the plane buffers that some live frame still references plus pooled buffers where counted; when all frames are freed the live count is zero (no leak, no double free).", "quantifier": "every history of frame creation, sharing, writing and freeing", "why_tests_cant": "Leaks and double releases depend on the order in which shared planes are detached and released.", "anchors": ["src/core/vscore.cpp:VSPlaneData", "src/core/memoryuse.cpp:MemoryUse::allocate", "src/core/memoryuse.cpp:MemoryUse::deallocate"]}
{"id": "C07", "title": "A frame buffer is never smaller than requested nor handed out twice", "statement": "Every buffer returned by the frame allocator has at least the requested size, wastes at most one eighth of the request (beyond alignment) when taken from the pool, and is not in use by any other live buffer.", "quantifier": "every allocation/free history and every request size", "why_tests_cant": "Reuse decisions depend on the pool contents produced by the whole history.", "anchors": ["src/core/memoryuse.cpp:MemoryUse::allocate", "src/core/memoryuse.cpp:is_good_fit"]}
{"id": "C08", "title": "Pooled memory is trimmed to the limit", "statement": "After any free or limit change, live plus pooled memory is within the configured limit, or the pool is empty.", "quantifier": "every history of allocations, frees and limit changes, and every random choice of the trimming loop", "why_tests_cant": "The trimming victim is random, so each run exercises one of unboundedly many paths.", "anchors": ["src/core/memoryuse.cpp:MemoryUse::gc_freelist", "src/core/memoryuse.cpp:MemoryUse::set_limit"]}
{"id": "C09", "title": "The allocator lives exactly as long as it is needed", "statement": "After the core is freed the allocator is destroyed exactly once, at the moment the last outstanding frame buffer is released, and never while a buffer is outstanding.", "quantifier": "every interleaving of core release and buffer releases", "why_tests_cant": "It is a lifetime property of all interleavings.", "anchors": ["src/core/memoryuse.cpp:MemoryUse::on_core_freed", "src/core/memoryuse.cpp:MemoryUse::deallocate"]}
{"id": "C10", "title": "Frame cache is transparent", "statement": "A cache lookup for frame n returns either nothing or the frame most recently stored for n that has not been cleared since; it never returns a frame stored for another number.", "quantifier": "every sequence of insert, lookup, resize, clear and trim operations with any keys", "why_tests_cant": "Correctness depends on an intrusive linked list threaded through a hash table over the entire history.", "anchors": ["src/core/vscore.h:VSCache", "src/core/vscore.cpp:VSCache::insert", "src/core/vscore.h:VSNode::getCachedFrameInternal"]}
{"id": "C11", "title": "Frame cache respects its size limits", "statement": "After every operation the cache holds at most the configured number of frames and remembers at most the configured number of evicted keys, its frame, history and byte counters are exact, and no key appears twice.", "quantifier": "every operation history and every size setting", "why_tests_cant": "Limit violations arise from specific interleavings of resize, hit, eviction and trim.", "anchors": ["src/core/vscore.h:VSCache::relink", "src/core/vscore.cpp:VSCache::evictFrames", "src/core/vscore.h:VSCache::setMaxFrames"]}
{"id": "C12", "title": "Frame cache evicts least recently used first", "statement": "The frames held after any history are exactly the most recently used ones: the cache contents are a prefix of the list of distinct keys ordered by last use, until trimmed or cleared.", "quantifier": "every history of inserts and lookups", "why_tests_cant": "Needs reasoning about recency over arbitrary histories.", "anchors": ["src/core/vscore.h:VSCache::relink", "src/core/vscore.cpp:VSCache::insert"]}
{"id": "C13", "title": "Every asynchronous request is answered exactly once", "statement": "Each getFrameAsync call results in at most one callback, carrying the requested frame number and node, and once the scheduler has no more work every call has had its callback.", "quantifier": "every filter graph, every set of requests, every interleaving of worker threads, every filter behaviour", "why_tests_cant": "Schedules are unboundedly many; tests see one.", "anchors": ["src/core/vsapi.cpp:getFrameAsync", "src/core/vsthreadpool.cpp:VSThreadPool::runTasks", "src/core/vsthreadpool.cpp:VSThreadPool::startExternal", "src/core/vsthreadpool.cpp:VSThreadPool::returnFrame"]}
{"id": "C14", "title": "The result of a frame request does not depend on the schedule", "statement": "For filters that are functions of their inputs the frame (or the fact of an error) delivered for a request equals the result of evaluating the graph recursively, whatever the interleaving, caching and request coalescing.", "quantifier": "every acyclic filter graph of deterministic filters, every schedule, every cache decision", "why_tests_cant": "Quantifies over schedules and cache states.", "anchors": ["src/core/vsthreadpool.cpp:VSThreadPool::runTasks", "src/core/vsthreadpool.cpp:VSThreadPool::startInternalRequest", "src/core/vscore.cpp:VSNode::getFrameInternal"]}
{"id": "C15", "title": "A failing dependency always surfaces as an error", "statement": "If producing a frame a request depends on fails, the request's callback receives no frame and a non-empty error message which is one reported by a failing dependency, and the filter gets exactly one error activation after all its outstanding requests have finished.", "quantifier": "every graph, every failure pattern, every schedule", "why_tests_cant": "Failure timing relative to other completions is schedule dependent.", "anchors": ["src/core/vsthreadpool.cpp:VSThreadPool::runTasks", "src/core/vscore.cpp:VSFrameContext::setError"]}
{"id": "C16", "title": "Filter activation protocol", "statement": "For each frame computation a filter is first called once with the initial reason; it is called again only after all the frames it requested have been delivered; every frame it requested is available then.", "quantifier": "every filter, every request pattern (including duplicate requests), every schedule", "why_tests_cant": "Depends on counting outstanding requests under concurrency.", "anchors": ["src/core/vsthreadpool.cpp:VSThreadPool::runTasks", "src/core/vsapi.cpp:requestFrameFilter", "src/core/vsapi.cpp:getFrameFilter"]}
{"id": "C17", "title": "Filter modes give the promised exclusion", "statement": "A filter declared unordered is never executed by two threads at once; one declared frame-state never starts another frame before the current one is finished; parallel-requests filters never run two frames-ready activations at once.", "quantifier": "every schedule, thread count and graph", "why_tests_cant": "Races cannot be ruled out by running.", "anchors": ["src/core/vsthreadpool.cpp:VSThreadPool::runTasks", "src/core/vscore.h:VSNode", "include/VapourSynth4.h:VSFilterMode"]}
{"id": "C18", "title": "The scheduler never gets stuck", "statement": "In every reachable state with an unanswered request some worker is running a filter or some queued task can be started, so with fair workers every request is eventually answered when filters terminate.", "quantifier": "every reachable scheduler state for acyclic graphs", "why_tests_cant": "Deadlock freedom over all states.", "anchors": ["src/core/vsthreadpool.cpp:VSThreadPool::runTasks"]}
{"id": "C19", "title": "Video format identifiers are a faithful encoding", "statement": "queryVideoFormatID and getVideoFormatByID are mutually inverse on valid formats; two different valid formats never share an identifier, and decoding yields only valid formats.", "quantifier": "all colour family, sample type, bit depth and subsampling values, all 32-bit identifiers", "why_tests_cant": "A bit-packing over a large domain.", "anchors": ["src/core/vscore.cpp:VSCore::queryVideoFormatID", "src/core/vscore.cpp:VSCore::getVideoFormatByID", "src/core/vscore.cpp:VSCore::queryVideoFormat"]}
{"id": "C20", "title": "Format queries accept exactly the documented formats", "statement": "queryVideoFormat succeeds exactly for the documented combinations and fills in consistent derived fields (plane count, bytes per sample large enough for the bits, next power of two); queryAudioFormat likewise with the channel count equal to the number of layout bits.", "quantifier": "all argument values", "why_tests_cant": "Decision over all integer inputs.", "anchors": ["src/core/vscore.cpp:VSCore::queryVideoFormat", "src/core/vscore.cpp:VSCore::isValidVideoFormat", "src/core/vscore.cpp:VSCore::queryAudioFormat"]}
{"id": "C21", "title": "Format names identify formats", "statement": "getVideoFormatName succeeds on every valid format and gives different names to different formats.", "quantifier": "all pairs of valid formats", "why_tests_cant": "Pairwise over the whole format space.", "anchors": ["src/core/vscore.cpp:VSCore::getVideoFormatName"]}
{"id": "C22", "title": "Rational helpers compute exactly and reduce", "statement": "muldivRational multiplies a rational by a rational and returns the unique reduced representation as long as the products fit in 64 bits; addRational returns the reduced sum under the same proviso.", "quantifier": "all 64-bit numerators and denominators within the stated range", "why_tests_cant": "Arithmetic over unbounded operands including sign and overflow edges.", "anchors": ["include/VSHelper4.h:muldivRational", "include/VSHelper4.h:addRational", "include/VSHelper4.h:reduceRational"]}
{"id": "C23", "title": "Function signatures round-trip", "statement": "Parsing the argument string that the core reports for a registered function yields the same argument list as the original registration; registration accepts exactly well-formed strings and rejects duplicate or malformed argument names.", "quantifier": "all argument strings", "why_tests_cant": "Strings are unbounded.", "anchors": ["src/core/vscore.cpp:parseArgString", "src/core/vscore.cpp:VSPluginFunction", "src/core/vscore.cpp:VSPluginFunction::getV4ArgString"]}
{"id": "C24", "title": "Invocation checks arguments exactly", "statement": "invoke reaches the filter's create function exactly when each required argument is present, every present argument has the declared type and arity and no undeclared argument is present; otherwise the result is an error map and the create function is not called.", "quantifier": "all signatures and all argument maps", "why_tests_cant": "Quantifies over signatures and maps.", "anchors": ["src/core/vscore.cpp:VSPluginFunction::invoke", "src/core/vscore.cpp:VSPluginFunction::checkValues"]}
{"id": "C25", "title": "Plugin identifiers and namespaces are unique", "statement": "After any sequence of plugin loads no two loaded plugins share an identifier or a namespace, a rejected load leaves the set unchanged, lookup by identifier or namespace finds exactly the loaded plugin, and no plugin has two functions of the same name.", "quantifier": "every sequence of load attempts and registrations", "why_tests_cant": "History property.", "anchors": ["src/core/vscore.cpp:VSCore::loadPlugin", "src/core/vscore.cpp:VSPlugin::registerFunction", "src/core/vscore.cpp:VSCore::getPluginByID"]}
{"id": "C26", "title": "Log messages are neither lost nor reordered", "statement": "While at least one handler is installed every logged message is delivered to every handler installed at that time, in logging order; before a handler exists up to 500 messages are kept and the first handler installed receives the kept ones, in order, before any newer message.", "quantifier": "every interleaving of log, add-handler and remove-handler operations", "why_tests_cant": "History property with a bounded buffer.", "anchors": ["src/core/vscore.cpp:VSCore::logMessage", "src/core/vscore.cpp:VSCore::addLogHandler", "src/core/vscore.cpp:VSCore::removeLogHandler"]}
{"id": "C27", "title": "Trim selects exactly the requested range", "statement": "std.Trim accepts exactly the in-range argument combinations and frame k of its output is frame first+k of the input, with the output length as requested.", "quantifier": "all clips, all argument combinations, all frame numbers", "why_tests_cant": "Unbounded clip lengths and arguments including saturation and overflow edges.", "anchors": ["src/core/reorderfilters.cpp:trimCreate", "src/core/reorderfilters.cpp:trimGetframe"]}
{"id": "C28", "title": "Reverse and Loop", "statement": "std.Reverse reverses the frame sequence and applied twice is the identity; std.Loop(times) is the input repeated times times (or up to the maximal length for 0).", "quantifier": "all clip lengths and repeat counts", "why_tests_cant": "Unbounded lengths.", "anchors": ["src/core/reorderfilters.cpp:reverseGetframe", "src/core/reorderfilters.cpp:loopGetframe", "src/core/reorderfilters.cpp:loopCreate"]}
{"id": "C29", "title": "Interleave weaves its inputs", "statement": "std.Interleave of m clips outputs frame k of clip i at position k*m+i (repeating the last frame of shorter clips), with the documented length; with equal lengths SelectEvery(m,i) of the result recovers clip i.", "quantifier": "all clip lists and lengths, extend on or off", "why_tests_cant": "Unbounded.", "anchors": ["src/core/reorderfilters.cpp:interleaveCreate", "src/core/reorderfilters.cpp:interleaveGetframe"]}
{"id": "C30", "title": "SelectEvery selects exactly the listed offsets of each cycle", "statement": "std.SelectEvery outputs, in order, for each cycle of the input the frames at the given offsets that exist, and the declared length is their number.", "quantifier": "all input lengths, cycles and offset lists", "why_tests_cant": "Unbounded; the partial last cycle is special.", "anchors": ["src/core/reorderfilters.cpp:selectEveryCreate", "src/core/reorderfilters.cpp:selectEveryGetframe"]}
{"id": "C31", "title": "Splice concatenates", "statement": "std.Splice outputs the concatenation of its input clips; too long results are rejected rather than overflowing.", "quantifier": "all clip lists", "why_tests_cant": "Unbounded.", "anchors": ["src/core/reorderfilters.cpp:spliceCreate", "src/core/reorderfilters.cpp:spliceGetframe"]}
{"id": "C32", "title": "DuplicateFrames, DeleteFrames and FreezeFrames edit exactly the named frames", "statement": "DuplicateFrames repeats each listed frame once per listing right after itself, DeleteFrames removes exactly the listed frames keeping order, FreezeFrames replaces exactly the frames in the given ranges; argument order is irrelevant; DeleteFrames undoes DuplicateFrames when given the duplicate positions.", "quantifier": "all clips and all frame lists or ranges", "why_tests_cant": "Unbounded lists; index shifting accumulates.", "anchors": ["src/core/reorderfilters.cpp:duplicateFramesGetFrame", "src/core/reorderfilters.cpp:deleteFramesGetFrame", "src/core/reorderfilters.cpp:freezeFramesGetFrame"]}
{"id": "C33", "title": "AudioTrim is sample exact", "statement": "std.AudioTrim outputs exactly the samples first..first+length-1 of its input in frames of the standard size, for any alignment, reading only frames it requested.", "quantifier": "all lengths, offsets, frame numbers and channels", "why_tests_cant": "Alignment cases over unbounded positions.", "anchors": ["src/core/audiofilters.cpp:audioTrimGetframe", "src/core/audiofilters.cpp:audioTrimCreate"]}
{"id": "C34", "title": "AudioSplice and AudioLoop are sample exact", "statement": "std.AudioSplice outputs exactly the concatenation of its inputs' samples and std.AudioLoop the repetition, re-cut into standard frames, reading only frames it requested.", "quantifier": "all clip lists, lengths, repeat counts and frame numbers", "why_tests_cant": "A frame can straddle any number of short inputs.", "anchors": ["src/core/audiofilters.cpp:audioSpliceGetframe", "src/core/audiofilters.cpp:audioLoopGetFrame"]}
{"id": "C35", "title": "AudioReverse is sample exact", "statement": "Sample i of std.AudioReverse is sample N-1-i of the input in every channel; applied twice it is the identity.", "quantifier": "all lengths and frame numbers", "why_tests_cant": "The misaligned last frame makes each output frame straddle two inputs.", "anchors": ["src/core/audiofilters.cpp:audioReverseGetFrame"]}
{"id": "C36", "title": "Audio filters honour the declared frame lengths", "statement": "Each audio frame a core audio filter returns has the number of samples the core expects for that position, so that the core's fatal length check never fires.", "quantifier": "all audio filters, lengths, settings and request orders", "why_tests_cant": "Depends on request order and length arithmetic.", "anchors": ["src/core/vscore.cpp:VSNode::getFrameInternal", "src/core/audiofilters.cpp:blankAudioGetframe"]}
{"id": "C37", "title": "ShuffleChannels routes channels as asked", "statement": "Output channel c of std.ShuffleChannels contains the samples of the selected input channel, zero padded to the longest input; SplitChannels followed by recombination is the identity.", "quantifier": "all channel layouts, selections and lengths", "why_tests_cant": "Combinatorial space of 64-bit layouts.", "anchors": ["src/core/audiofilters.cpp:shuffleChannelsCreate", "src/core/audiofilters.cpp:shuffleChannelsGetFrame", "src/core/audiofilters.cpp:splitChannelsCreate"]}
{"id": "C38", "title": "Nodes and core are freed in a safe order", "statement": "A filter is freed exactly once, only when no external reference and no consumer references it, never before its consumers; the core object is destroyed only after the user released it and every filter instance is gone; releasing chains of any depth needs no deep recursion.", "quantifier": "every graph and every release order", "why_tests_cant": "Lifetime property over all release orders.", "anchors": ["src/core/vscore.cpp:VSCore::destroyFilterInstance", "src/core/vscore.cpp:VSCore::filterInstanceDestroyed", "src/core/vscore.cpp:VSCore::freeCore"]}
{"id": "C39", "title": "vspipe writes every frame once and in order", "statement": "Whatever order frames complete in, vspipe writes frames 0,1,2,... consecutively, each once, frees each once, and finishes exactly when every requested frame has completed; on error it writes a prefix and stops requesting.", "quantifier": "every completion order, every failure point, with and without alpha", "why_tests_cant": "Completion order is schedule dependent.", "anchors": ["src/vspipe/vspipe.cpp:frameDoneCallback"]}
{"id": "C40", "title": "JSON output is well formed and lossless for strings", "statement": "Every string written to vspipe's JSON output is a valid JSON string that decodes to the original bytes, and the frame property object is valid JSON for every property map.", "quantifier": "all byte strings and all property maps", "why_tests_cant": "Unbounded strings, all property types.", "anchors": ["src/vspipe/vsjson.cpp:escapeJSONString", "src/vspipe/vsjson.cpp:convertVSMapToJSON"]}
{"id": "C41", "title": "Wave output is a faithful interleaving", "statement": "Packed audio output contains each channel's samples at the proper interleaved little-endian position (dropping only padding for 24-bit) and the sizes recorded in the header equal the bytes written; files too large for the format are refused.", "quantifier": "all channel counts, lengths and sample values", "why_tests_cant": "Unbounded sizes and overflow edges.", "anchors": ["src/common/wave.cpp:PackChannels32to24le", "src/common/wave.cpp:CreateWaveHeader"]}
{"id": "C42", "title": "Cache enabling follows the consumers", "statement": "A node's cache is active exactly when the documented rule says so given its consumers' request patterns, after any sequence of consumers appearing and disappearing and explicit mode settings.", "quantifier": "every history of consumer changes and mode settings", "why_tests_cant": "History property.", "anchors": ["src/core/vscore.cpp:VSNode::updateCacheState", "src/core/vscore.cpp:VSNode::addConsumer", "src/core/vscore.cpp:VSNode::setCacheMode"]}
{"id": "C43", "title": "Plane pointers cover the whole plane", "statement": "For every live video frame and plane, getStride is the least multiple of the alignment holding a row and the pointers of the plane cover stride times height bytes; for every audio frame and channel the pointers cover all samples of a frame. No read or write inside that range is out of bounds.", "quantifier": "every history of frame creation, plane sharing, copying, writing and freeing, every format and size", "why_tests_cant": "An undersized buffer is only noticed when the memory after it is in use; planes reach a frame through many paths (fresh, shared, copied on write).", "anchors": ["src/core/vscore.cpp:VSFrame::VSFrame", "src/core/vscore.cpp:VSFrame::getWritePtr", "src/core/vsapi.cpp:newVideoFrame2", "src/core/vsapi.cpp:newAudioFrame"]}
{"id": "C44", "title": "Formats registered for version 3 programs are stable and unique", "statement": "For every history of version 3 format requests no request fails or overflows, a format once returned under an identifier never changes, identifiers and formats correspond one to one, repeating a request returns the same format, only documented formats are registered, and converting a current format to version 3 and back, directly, by identifier or by preset, gives the same format.", "quantifier": "every history of getFormatPreset, registerFormat and conversions on a core", "why_tests_cant": "The registry grows with the history; the claim quantifies over all histories and all formats.", "anchors": ["src/core/vscore.cpp:VSCore::queryVideoFormat3", "src/core/vscore.cpp:VSCore::getVideoFormat3", "src/core/vscore.cpp:VSCore::VideoFormatToV3", "src/core/vscore.cpp:VSCore::VideoFormatFromV3", "src/core/vscore.cpp:VSCore::registerFormats"]}
{"id": "C45", "title": "Enumerating plugins and functions is complete", "statement": "Starting with a null handle and asking for the next plugin until there is none visits every plugin that was loaded at the start, none twice, even if the program loads further plugins or registers functions between the steps; the same holds for the functions of a plugin.", "quantifier": "every reachable core, every sequence of loads and registrations between two steps of the enumeration", "why_tests_cant": "The plugin or function inserted during the enumeration may sort before or after the current position; the claim ranges over all interleavings.", "anchors": ["src/core/vscore.cpp:VSCore::getNextPlugin", "src/core/vscore.cpp:VSPlugin::getNextFunction"]}
{"id": "C46", "title": "Plugins that are not declared modifiable do not change", "statement": "A plugin that did not set pcModifiable has, after it was loaded, the same functions with the same signatures for as long as the core lives; attempts to register more functions with it fail and change nothing.", "quantifier": "every plugin and every later history of calls", "why_tests_cant": "The claim is about every later call sequence by any program that obtained the plugin handle.", "anchors": ["src/core/vscore.cpp:VSPlugin::registerFunction", "src/core/vscore.cpp:VSPlugin::configPlugin", "src/core/vscore.cpp:VSPlugin::lock", "src/core/vscore.cpp:VSCore::VSCore"]}
{"id": "C47", "title": "A manifest lists one plugin per line", "statement": "When a plugin directory contains a manifest, exactly the plugins named on its lines after the first are loaded, for carriage return, line feed or both as line ends and regardless of empty lines; a file without the expected first line is rejected with a message and loads nothing.", "quantifier": "every content of a manifest file", "why_tests_cant": "All byte strings are possible contents, including empty ones, files without a final line end and very long ones.", "anchors": ["src/core/vscore.cpp:VSCore::loadPluginManifest"]}
{"id": "C48", "title": "Raw video output is the planes without padding", "statement": "vspipe's raw video output consists, frame after frame, of the rows of every plane from top to bottom without the padding between rows, RGB planes in the order G, B, R, followed by the alpha plane if there is one; nothing outside of the frames and the packing buffer is accessed.", "quantifier": "every constant format, dimensions, row distance, contents, number of frames, with and without alpha", "why_tests_cant": "row distances depend on the platform's alignment and the packing buffer is sized independently of the planes; a test sees a few formats and strides", "anchors": ["src/vspipe/vspipe.cpp: outputFrame, initializeVideoOutput", "include/VSHelper4.h: bitblt"]}
{"id": "C49", "title": "A y4m file describes its clip", "statement": "From a y4m file written by vspipe the format, dimensions, frame rate, number of frames and every frame can be recovered; clips that y4m cannot describe are refused.", "quantifier": "every clip of constant format and every frame content", "why_tests_cant": "the header has to be unambiguous for all combinations of subsampling, depth, sample type, dimensions and rates, and the frame size derived from it must equal what is written", "anchors": ["src/vspipe/vspipe.cpp: initializeVideoOutput, floatBitsToLetter, outputFrame, frameDoneCallback"]}
{"id": "C50", "title": "Timecodes are the sums of the durations", "statement": "Line n of the timecodes file is the time at which frame n starts, the sum of the durations of the frames before it, in milliseconds; lines never go backwards; output ends with an error at the first frame without a positive duration.", "quantifier": "every sequence of frame durations; for monotonicity every rounding of intermediate results", "why_tests_cant": "durations are grouped by value and summed in a different order than the frames; equality must hold for every mixture of durations", "anchors": ["src/vspipe/vspipe.cpp: getCurrentTimecode, frameDoneCallback"]}
{"id": "C51", "title": "An expression means what its reverse Polish notation says", "statement": "The words of the text of an expression are the runs of characters without white space, each word is a clip, a constant, an operator, dupN or swapN, and the value of an accepted expression is the number that a stack machine leaves; every other text is refused with an error.", "quantifier": "every text, every number of clips, every sample and every arithmetic", "why_tests_cant": "texts are unbounded and the parser builds shared trees by cloning stack entries; equality with a stack machine has to hold for all of them", "anchors": ["src/core/expr/expr.cpp: tokenize, decodeToken, parseExpr"]}
{"id": "C52", "title": "The byte code of an expression computes its value", "statement": "Without optimization, each output sample of Expr is the value of the expression for the input samples at the same place, bit by bit as with direct evaluation; no register is read before it is written or outside of the register file.", "quantifier": "every expression, every row of samples, every previous content of the registers and every arithmetic", "why_tests_cant": "equal subexpressions are shared by numbering and registers are reused after their last use; this has to be right for every tree", "anchors": ["src/core/expr/expr.cpp: applyValueNumbering, renameRegisters, compile", "src/core/exprfilter.cpp: ExprInterpreter"]}
{"id": "C53", "title": "Integer results of Expr are rounded and clamped", "statement": "Integer output samples lie between 0 and the largest value of the depth; values in between are rounded, smaller ones become 0, larger ones the largest value.", "quantifier": "every value except not-a-number, every depth", "why_tests_cant": "holds for every value and depth", "anchors": ["src/core/exprfilter.cpp: ExprInterpreter::clamp_int"]}
{"id": "C54", "title": "Optimizing an expression does not change its value", "statement": "In exact arithmetic the optimized expression has, wherever the expression as written is defined, the value of the expression as written.", "quantifier": "every expression and every choice of samples", "why_tests_cant": "more than forty rewriting rules are applied repeatedly to trees of any shape; the interactions cannot be enumerated", "anchors": ["src/core/expr/expr.cpp: applyLocalOptimizations, combinePowerTerms, applyAlgebraicOptimizations, applyComparisonOptimizations, applyStrengthReduction, applyOpFusion, compile"]}
{"id": "C55", "title": "Crop shows exactly the chosen area", "statement": "Crop and CropRel deliver in every plane exactly the pixels of the chosen area, with the properties of the input except that the field order is exchanged if an odd number of lines is cut from the top. They accept exactly the areas that lie inside the picture, are not empty and fit to the subsampling; nothing outside of the input frame is read.", "quantifier": "every clip, area, format, subsampling, stride alignment and content of memory", "why_tests_cant": "sizes, offsets, formats and subsampling combine without bound; out of bounds reads rarely show in tests", "anchors": ["src/core/simplefilters.cpp: cropVerify, cropGetframe, cropAbsCreate, cropRelCreate"]}
{"id": "C56", "title": "AddBorders surrounds the picture with the color", "statement": "AddBorders delivers in every plane the picture of the input surrounded by borders of the given sizes, with the given color or black; cropping the borders away again gives the input.", "quantifier": "every clip, border sizes, format and color", "why_tests_cant": "as C55", "anchors": ["src/core/simplefilters.cpp: addBordersGetframe, addBordersCreate"]}
{"id": "C57", "title": "Flips and turns move every pixel to its place", "statement": "FlipVertical, FlipHorizontal, Turn180, Transpose, Turn90 and Turn270 show every plane mirrored, rotated or with rows and columns exchanged, in blocks as well as pixel by pixel. Flipping twice, turning by 180 degrees twice, or by 90 and 270 degrees gives the original clip.", "quantifier": "every clip, size, format, block size used by the implementation", "why_tests_cant": "blocks and remainders make many cases in width and height", "anchors": ["src/core/simplefilters.cpp: flipVerticalGetframe, flipHorizontalGetframe, transposeGetFrame", "src/core/kernel/x86/transpose.c, src/core/kernel/transpose.c"]}
{"id": "C58", "title": "Stacked clips show all inputs next to each other", "statement": "StackVertical and StackHorizontal show the inputs from top to bottom or from left to right; cutting out the area of an input gives its frames back.", "quantifier": "any number of clips of any sizes", "why_tests_cant": "any number of inputs", "anchors": ["src/core/simplefilters.cpp: stackGetframe, stackCreate"]}
{"id": "C59", "title": "ShufflePlanes and SplitPlanes pick planes", "statement": "Each plane of the output of ShufflePlanes is the chosen plane of the chosen clip, the properties are those of the first clip or of prop_src; SplitPlanes gives each plane as a gray clip; putting the planes together again gives the original clip. Unsuitable combinations are refused with an error.", "quantifier": "every list of clips, planes and color family", "why_tests_cant": "combinations of formats and sizes are unbounded", "anchors": ["src/core/simplefilters.cpp: shufflePlanesGetframe, shufflePlanesCreate, splitPlanesCreate"]}
{"id": "C60", "title": "SeparateFields and DoubleWeave take fields apart and put them together", "statement": "SeparateFields shows alternate lines of each frame, in the order given by the frame property or else by the argument, and marks them; DoubleWeave interleaves consecutive fields; both together give the original frames. Durations and frame rates are changed exactly.", "quantifier": "every clip, order, duration and frame number", "why_tests_cant": "frame properties and numbers are unbounded; parity errors depend on their combination", "anchors": ["src/core/simplefilters.cpp: separateFieldsGetframe, separateFieldsCreate, doubleWeaveGetframe, doubleWeaveCreate"]}
{"id": "C61", "title": "Setting frame properties changes these properties only", "statement": "SetFrameProp, SetFrameProps and SetFieldBased give every frame exactly the values passed, whatever the frame had under this name before; all other properties, and the input frame, which may be shared with other filters, keep theirs. Unusable arguments are refused.", "quantifier": "every history of property maps, frame, name, kind and number of values", "why_tests_cant": "sharing depends on the whole history of the frame; values and names are unbounded", "anchors": ["src/core/simplefilters.cpp: setFramePropGetFrame, setFramePropCreate, setFramePropsGetFrame, setFramePropsCreate, setFieldBasedGetFrame"]}
{"id": "C62", "title": "RemoveFrameProps removes exactly the matching properties", "statement": "Without names all properties are removed. With patterns exactly the properties are removed that one of the patterns fits, where * stands for any characters and ? for one, and every other character for itself; every pattern is accepted.", "quantifier": "every set of properties, every list of patterns, every sharing of frames", "why_tests_cant": "patterns and names are unbounded; the deletion happens while the list of names is walked", "anchors": ["src/core/simplefilters.cpp: removeFramePropsGetFrame, removeFramePropsCreate", "src/core/vsapi.cpp: mapDeleteKey, mapGetKey"]}
{"id": "C63", "title": "CopyFrameProps takes the properties of the other clip", "statement": "Without names the frame has exactly the properties of the other clip's frame. With names it has the other frame's values under these names, with their kinds and numbers, lacks those the other frame lacks, and keeps its own properties under all other names. Neither input frame changes.", "quantifier": "every pair of frames, every history, all kinds of values and any number of them", "why_tests_cant": "kinds, numbers and sharing combine", "anchors": ["src/core/simplefilters.cpp: copyFramePropsAllGetFrame, copyFramePropsGetFrame, copyFramePropsCreate"]}
{"id": "C64", "title": "A clip stored in frame properties comes back", "statement": "ClipToProp attaches the frames of a clip to the frames of another one, PropToClip returns the attached frames; together they give back the stored clip, frame by frame, with its format, size and length. A missing frame or one of another format is an error.", "quantifier": "every pair of clips, property name, frame number, history", "why_tests_cant": "references in properties live as long as any copy of the properties", "anchors": ["src/core/simplefilters.cpp: clipToPropGetFrame, clipToPropCreate, propToClipGetFrame, propToClipCreate"]}
{"id": "C65", "title": "Merge gives the weighted mean", "statement": "Every sample of Merge is the weighted mean of the two samples, rounded to the nearest integer and never outside of the range between them; the weight is exact up to 1/32768, and exact if it is 0 or 1, when the plane is copied. The weights of planes without one are that of the plane before. Frame properties are those of the first clip; unusable arguments are refused.", "quantifier": "every pair of clips of 8 to 16 bits or float, all weights, all sizes, frame numbers and samples", "why_tests_cant": "65536 x 65536 samples with all weights; the weight is computed in floating point", "anchors": ["src/core/mergefilters.cpp: mergeGetFrame, mergeCreate", "src/core/kernel/merge.cpp: vs_merge_byte_c, vs_merge_word_c"]}
{"id": "C66", "title": "MaskedMerge mixes by the mask", "statement": "Every sample of MaskedMerge is the mean of the two samples with the weight of the mask, rounded to the nearest integer: where the mask is zero the first clip, where it is full the second one. With premultiplied clips the first clip fades by the inverted mask and the second one is added, limited to the range. Planes that are not listed are copied; chroma planes use the mask that belongs to their size and chroma location; clips with different chroma locations or ranges are refused.", "quantifier": "every three clips, planes, depths and samples", "why_tests_cant": "the division is done by multiplication with a magic number for each depth: 2^48 cases", "anchors": ["src/core/mergefilters.cpp: maskedMergeGetFrame, maskedMergeCreate", "src/core/kernel/merge.cpp: vs_mask_merge_byte_c, vs_mask_merge_word_c, vs_mask_merge_premul_byte_c, vs_mask_merge_premul_word_c"]}
{"id": "C67", "title": "PreMultiply scales by alpha", "statement": "PreMultiply multiplies the distance of each sample from black, or from the middle of the range in chroma planes of YUV, with alpha, rounded to the nearest integer; black follows the range of the frame.", "quantifier": "every clip, alpha clip, depth, range and sample", "why_tests_cant": "2^32 pairs of samples for each depth and offset; the product is computed in unsigned types of fixed size", "anchors": ["src/core/mergefilters.cpp: preMultiplyGetFrame, preMultiplyCreate, getLimitedRangeOffset, resolveChromaLocation", "src/core/kernel/merge.cpp: vs_premultiply_byte_c, vs_premultiply_word_c"]}
{"id": "C68", "title": "MakeDiff and MergeDiff are inverse as long as nothing is limited", "statement": "MakeDiff gives the difference of the samples shifted by the middle of the range, MergeDiff adds it again, both limited to the range; if no difference was limited, adding the difference to the second clip gives the first one exactly.", "quantifier": "every pair of clips, list of planes and sample", "why_tests_cant": "all pairs of samples of all depths", "anchors": ["src/core/mergefilters.cpp: makeDiffGetFrame, makeDiffCreate, mergeDiffGetFrame, mergeDiffCreate", "src/core/kernel/merge.cpp: vs_makediff_byte_c, vs_makediff_word_c, vs_mergediff_byte_c, vs_mergediff_word_c"]}
{"id": "C69", "title": "MakeFullDiff loses nothing", "statement": "MakeFullDiff gives the exact difference in a format with one bit more; MergeFullDiff of the second clip and this difference is the first clip, for all samples.", "quantifier": "every pair of clips of 8 to 16 bits and all their samples", "why_tests_cant": "all pairs of samples of all depths; the number of bytes of a sample changes", "anchors": ["src/core/mergefilters.cpp: makeFullDiffGetFrame, makeFullDiffCreate, mergeFullDiffGetFrame, mergeFullDiffCreate", "src/core/kernel/merge.cpp: vs_makefulldiff_byte_word_c, vs_makefulldiff_word_word_c, vs_makefulldiff_word_dword_c, vs_mergefulldiff_word_byte_c, vs_mergefulldiff_word_word_c, vs_mergefulldiff_dword_word_c"]}
{"id": "C70", "title": "Lut looks every sample up in the table", "statement": "Every sample of the chosen planes is replaced by the entry of the table at its value, whether the table is given as a list of integers, of floats or as a function; samples above the range of the format are treated like the largest value; other planes and the frame properties are copied. Tables of the wrong length, values outside of the new range, functions that fail or return something else, and contradictory arguments are refused.", "quantifier": "every clip, table, function, output depth, list of planes and sample", "why_tests_cant": "the table is indexed by samples that may be outside of the range, rows are processed in blocks that end behind the row, the function can fail for one value", "anchors": ["src/core/lutfilters.cpp: lutCreate, lutCreateHelper, funcToLut, lutGetframe"]}
{"id": "C71", "title": "Lut2 looks every pair of samples up in the table", "statement": "Every sample of the chosen planes is replaced by the entry of the table at x + y * 2^bits for the samples x and y of the two clips; samples above the range are treated like the largest value; other planes and the frame properties are those of the first clip. Unusable clips, tables and arguments are refused.", "quantifier": "every pair of clips of up to 20 bits together, table, function and list of planes", "why_tests_cant": "2^20 pairs of samples, all formats of both clips", "anchors": ["src/core/lutfilters.cpp: lut2Create, lut2CreateHelper, funcToLut2, lut2Getframe"]}
{"id": "C72", "title": "Invert reflects every sample", "statement": "Every integer sample v of the chosen planes becomes max - v, where max is the largest value of the format of the frame (larger samples are taken for max); float samples become 1 - v, or -v in the chroma planes of YUV unless the clip is a mask. Inverting twice gives samples in range back. Other planes and the frame properties are copied. Clips with a variable format are accepted; a frame with an unusable format is an error.", "quantifier": "every clip, frame, list of planes and sample", "why_tests_cant": "all sample values, formats that change between frames", "anchors": ["src/core/genericfilters.cpp: InvertOp, invertCreate, singlePixelGetFrame"]}
{"id": "C73", "title": "Limiter keeps samples in the given range", "statement": "Every sample of the chosen planes is limited to the range from min to max. The arguments are rounded to integers for integer clips, the last value also counts for the planes that follow, without arguments the whole range is used. min above max, too many values and values that are no samples are refused.", "quantifier": "every clip, list of planes, argument list and sample", "why_tests_cant": "rounding of arguments near the ends of the range, all sample values", "anchors": ["src/core/genericfilters.cpp: LimitOp, limitCreate, getPlanePixelRangeArgs"]}
{"id": "C74", "title": "Binarize maps samples below the threshold to one value and the others to another", "statement": "Every sample of the chosen planes becomes v0 if it is smaller than the threshold, v1 otherwise; defaults are the smallest and largest value and the middle of the range, for float chroma planes -0.5, 0.5 and 0 unless the clip is a mask. Arguments are handled as in Limiter.", "quantifier": "every clip, list of planes, argument list and sample", "why_tests_cant": "rounding of arguments near the ends of the range, all sample values", "anchors": ["src/core/genericfilters.cpp: BinarizeOp, binarizeCreate, getPlanePixelRangeArgs"]}
{"id": "C76", "title": "Minimum and Maximum pick the extreme value of the chosen neighbours", "statement": "Every sample of the chosen planes becomes the least (greatest) value of itself and those of its eight neighbours that `coordinates` selects, but changes by at most the threshold and stays in the range of the format. At the border the nearest sample of the picture takes the place of a missing neighbour. Without arguments all neighbours count and the threshold is the largest value. Planes smaller than 4 x 4, a threshold that does not round to a sample and a list of coordinates that has not eight elements are refused; other planes and the frame properties are copied.", "quantifier": "every clip with at least 4 x 4 samples in the planes to be processed, every list of planes and sample, every threshold and list of coordinates", "why_tests_cant": "all 256 selections, borders, thresholds near the ends of the range, clips with frames of different sizes", "anchors": ["src/core/kernel/generic.cpp: MinMaxOp, filter_plane_3x3", "src/core/genericfilters.cpp: genericCreate, genericGetframe"]}
{"id": "C77", "title": "Median gives the median of nine samples", "statement": "Every sample of the chosen planes becomes the median of itself and its eight neighbours: one of the nine values, with at least five values that are not larger and at least five that are not smaller. The median is unique. Too small planes are refused.", "quantifier": "every clip with at least 4 x 4 samples in the planes to be processed, every list of planes and sample", "why_tests_cant": "all orders of nine values", "anchors": ["src/core/kernel/generic.cpp: MedianOp, filter_plane_3x3", "src/core/genericfilters.cpp: genericCreate, genericGetframe"]}
{"id": "C78", "title": "Deflate and Inflate move samples towards the mean of the neighbours", "statement": "Deflate replaces every sample of the chosen planes by the rounded mean of its eight neighbours if that is smaller, Inflate if it is larger; a sample changes by at most the threshold.", "quantifier": "every clip with at least 4 x 4 samples in the planes to be processed, every list of planes and sample, every threshold", "why_tests_cant": "all sample values, no overflow of the sum, thresholds near the ends of the range", "anchors": ["src/core/kernel/generic.cpp: DeflateInflateOp, filter_plane_3x3", "src/core/genericfilters.cpp: genericCreate, genericGetframe"]}
{"id": "C80", "title": "Prewitt and Sobel give the length of the gradient", "statement": "Every sample of the chosen planes becomes the length of the gradient of its surroundings times `scale`, rounded to an integer and limited to the range of the format, up to the relative error of single precision; in a flat area it is exactly 0. Negative scales and too small planes are refused.", "quantifier": "every clip with at least 4 x 4 samples in the planes to be processed, every list of planes and sample, every scale", "why_tests_cant": "all sample values and scales, rounding errors of single precision", "anchors": ["src/core/kernel/generic.cpp: PrewittSobelOp, filter_plane_3x3", "src/core/genericfilters.cpp: genericCreate, genericGetframe"]}
{"id": "C79", "title": "Convolution computes the weighted sum around every sample", "statement": "Every sample of the chosen planes becomes the sum of the samples under the matrix times the coefficients, divided by the divisor plus the bias, rounded and limited to the range of the format (without saturation: of the absolute value), up to the errors of single precision and exactly for whole numbers below 2^24. The sum never overflows. Beyond the edges the picture is mirrored. Without a divisor (or for 0) the sum of the coefficients takes its place, or 1. In the mode \"hv\" the rounded result of the columns is convolved again as rows. A flat picture keeps its value exactly. Other sizes of the matrix, coefficients that round to more than 1023, infinite arguments, unknown modes and planes that are too small are refused.", "quantifier": "every clip, matrix of every allowed size, mode, divisor with |divisor| >= 2^-127, bias, list of planes and sample", "why_tests_cant": "mirroring in pictures that are smaller than the matrix, overflow of sums with the largest coefficients and samples, rounding of all divisors", "anchors": ["src/core/kernel/generic.cpp: ConvolutionOp, conv_plane_square, conv_scanline_h, conv_plane_v, conv_plane_x, mirror_index", "src/core/genericfilters.cpp: genericCreate, genericGetframe, checkPlaneDims"]}
{"id": "C75", "title": "Levels moves samples between ranges", "statement": "On integer clips the ends of the ranges are rounded to integers, and every sample of the chosen planes becomes min_out + ratio^(1/gamma) * (max_out - min_out), where ratio is how far the sample, limited to the range of the input, is in it; rounded and limited to the range of the format, up to the errors of single precision. Samples outside of the range of the input give exactly the ends of the range of the output. Without arguments no sample changes. Each plane has its own numbers, the last one given is used for the following planes. Too many values, numbers that are not finite, max_in that is not larger than min_in (also after rounding) and gamma that is not positive are refused.", "quantifier": "every clip of every workable format, all arguments with finite differences, every list of planes and every sample", "why_tests_cant": "the tables have up to 65536 entries for all combinations of five floating point arguments", "anchors": ["src/core/genericfilters.cpp: levelsCreate, levelsGetframe, levelsGetframeF, levelsGetframeH, getPlaneFloatArgs"]}
{"id": "C81", "title": "AverageFrames is the weighted average of frames", "statement": "A frame of the result is made of as many frames as there are weights: those around it in a clip, with the first and the last one repeated, or the frames with its number in several clips. Of integer clips each sample is the sum of the products of samples and rounded weights divided by the scale, rounded and limited to the range, for the chroma of YUV relative to the middle of the range; exact if the division has no remainder, else up to the errors of single precision. Without scale the sum of the weights is used, or 1 if it is smaller, and frames that look alike are not changed if it is positive. With scenechange frames of other scenes are replaced by the one in the middle. Nothing overflows. The result is as long as the longest clip and has the properties of the middle frame, or of the frame of the first clip. Numbers of weights that do not fit, variable formats and sizes, clips that differ, weights that are not finite or beyond 1023 and scales below 1 are refused.", "quantifier": "all clips of every workable format, every frame, all weights, scales and lists of planes, all properties that mark scenes", "why_tests_cant": "there are up to 31 frames with arbitrary scene marks and weights", "anchors": ["src/core/averageframesfilter.cpp: average_int, averageFramesGetFrame, averageFramesCreate", "src/core/filtershared.h: floatToIntS"]}
{"id": "C82", "title": "PlaneStats measures a plane", "statement": "The frames of the result are those of the first clip with more properties. Of integer clips the prefix followed by Min and Max gives the smallest and the largest sample of the chosen plane, and Average the sum of the samples divided by their number and by the largest value of the format, up to the errors of double precision: it is 0 exactly if all samples are 0, at most 1 if all samples are in range, and 1 if all samples have the largest value. With a second clip Diff gives in the same way the average of the differences without sign, and it is 0 exactly if both planes have the same samples. Nothing overflows for planes with fewer than 2^47 samples. All other properties, and the planes, are not changed. Values of float clips depend on the samples of the plane alone. Formats PlaneStats cannot work on, planes that do not exist, and second clips that differ in format or size or are variable, are refused.", "quantifier": "all clips of every workable format, all frames and planes, all names", "why_tests_cant": "all pictures of all sizes; sums of up to 2^47 samples", "anchors": ["src/core/simplefilters.cpp: planeStatsGetFrame, planeStatsCreate", "src/core/kernel/planestats.cpp"]}
{"id": "C83", "title": "BoxBlur averages rows, then columns", "statement": "In the planes that are to be processed each pass replaces every sample of a row by the average of the samples at most hradius columns away, with the first and the last sample repeated beyond the ends; after hpasses passes the columns are treated in the same way with vradius and vpasses. Of integer clips the averages are exact, rounded up in the first pass, down in the second and so on; of float clips they come from a sum that moves along the row. Integer samples stay between the smallest and the largest sample of the plane, pictures that are brighter stay brighter, and a sample depends only on samples at most radius times passes away. Nothing overflows, and the contents of new memory do not matter. Other planes, the properties, the format, the size and the number of frames do not change. Sizes below 4 by 4, negative numbers of passes, radii outside of 0 to 30000, arguments that leave nothing to do, bad planes and formats with more than 16 bits for integers are refused.", "quantifier": "all clips of every workable format, all frames and planes, all radii and numbers of passes, all contents of new memory", "why_tests_cant": "the running sums, the ring buffer and the division by multiplication would have to be tried for all rows, radii and widths", "anchors": ["src/core/boxblurfilter.cpp: blurH, blurHF, blurHR1, processPlane, applyBoxBlurPlaneFiltering, boxBlurCreate", "src/core/simplefilters.cpp: transposeCreate, shufflePlanesCreate"]}
{"id": "C84", "title": "Half precision samples are converted faithfully", "statement": "Every half precision sample is read as the single precision number with the same value and sign; infinities and NaNs stay what they are. A single precision result of less than 65520 is stored as the nearest half precision number, larger ones and infinities as infinity of the same sign, NaNs as NaN; the order of numbers is kept, and samples that are only read and stored again do not change. Numbers in the middle of two half precision numbers are rounded to the even one on all machines.", "quantifier": "all 65536 half precision and all 2^32 single precision bit patterns", "why_tests_cant": "the conversions are used by every filter on half precision clips, and which of two variants is used depends on the compiler; results would have to be compared for all numbers with exact arithmetic", "anchors": ["src/core/float16_helper.h: halfToFloat, floatToHalf, isInfHalf"]}
{"id": "C85", "title": "Worker threads never all sleep on work", "statement": "As long as a frame was requested and not delivered, and the core is not being destroyed, at least one worker thread is inside a filter that is not itself waiting, or can go on by itself: lost wake-ups, the limit on the number of threads, the memory limit, the flush of caches, spurious wake-ups, changes of the thread count and filters that call getFrame never leave everything to threads that wait for each other.", "quantifier": "every reachable state of the pool with any number of threads, any thread count, any interleaving, any answers about memory, all acyclic graphs with arbitrary filters", "why_tests_cant": "a lost wake-up needs one particular interleaving of several threads", "anchors": ["src/core/vsthreadpool.cpp: runTasks, wakeThread, spawnThread, startExternal, returnFrame, setThreadCount", "src/core/vsapi.cpp: getFrame, getFrameAsync"]}
{"id": "C86", "title": "The number of threads stays within the limit", "statement": "There are never more worker threads than the largest thread count that was set, plus one for every call of getFrame made by a worker thread; without such calls never more filters run at once. The counts of active and idle threads never go below zero, and idle threads are those that wait for work.", "quantifier": "every reachable state of the pool, any sequence of thread counts, any interleaving", "why_tests_cant": "races between starting, waking and parking threads", "anchors": ["src/core/vsthreadpool.cpp: wakeThread, spawnThread, runTasks, setThreadCount, returnFrame"]}
{"id": "C87", "title": "Callbacks of getFrameAsync are called one at a time", "statement": "Two callbacks given to getFrameAsync never run at the same time, whatever the number of threads. What any number of threads does to the requests is one of the schedules of the scheduler, so that what is said there about answers, errors and order (C13 to C18) holds.", "quantifier": "every reachable state of the pool, any number of threads and requests", "why_tests_cant": "needs callbacks that happen to end at the same time", "anchors": ["src/core/vsthreadpool.cpp: returnFrame", "src/core/vsapi.cpp: getFrameAsync"]}
{"id": "C88", "title": "All threads end when the pool is destroyed", "statement": "Once the pool is being destroyed no thread sleeps, and as long as a thread has not ended, some thread is inside a filter or can go on, provided none waits in getFrame. When all threads have ended nothing is running and both counts of threads are zero.", "quantifier": "every reachable state of the pool at any time of the destruction", "why_tests_cant": "the destructor may come at any time between the steps of other threads", "anchors": ["src/core/vsthreadpool.cpp: ~VSThreadPool, runTasks"]}
{"id": "C89", "title": "AudioGain multiplies every sample and says when it clips", "statement": "Every sample of the result is the sample of the clip times the gain of its channel, rounded to the nearest value of the format (halves away from zero, on the grid of the significant bits) and limited to the range of the format; the product is exact if it has at most 53 bits. With overflow_error a frame that contains a limited sample is an error that names the sample interval, and all other frames are delivered; without it all frames are. A gain of one changes nothing. One gain per channel or one for all is accepted, every other number refused.", "quantifier": "all clips, sample formats, lengths, gains and samples", "why_tests_cant": "rounding, limiting and the numbers in the message go wrong only for particular samples, gains and very long clips", "anchors": ["src/core/audiofilters.cpp: audioGainCreate, audioGainGetFrame16, audioGainGetFrame32, audioGainGetFrameF, quantizeIntSample, intSampleRange"]}
{"id": "C90", "title": "AudioMix gives the weighted sums in the right channels", "statement": "Output channel number channels_out[j] of the result is at every position the sum of all channels of all clips, in order, weighted with row j of the matrix, rounded and limited to the format as in AudioGain; the sum is exact if nothing exceeds 53 bits. The channel layout is the set of channels_out; length, rate and sample type are those of the clips. A matrix with a single one in each row copies channels exactly. Clipping is reported as in AudioGain. Channel numbers out of range or given twice, a wrong number of weights and clips of different kinds are refused.", "quantifier": "all lists of clips, matrices, channel lists and samples", "why_tests_cant": "the order of channels, rows and clips matters only for particular combinations of layouts and matrices", "anchors": ["src/core/audiofilters.cpp: audioMixCreate, audioMixGetFrame16, audioMixGetFrame32, audioMixGetFrameF"]}
{"id": "C91", "title": "The text filters draw the text and nothing else", "statement": "Text, FrameNum, ClipInfo, CoreInfo and FrameProps return the source frame with the lines of the text on it. Line breaks are LF, CR or CR LF; lines that do not fit between margins of 16 pixels are cut into pieces of the largest length that fits; only as many pieces as fit are shown, aligned as the number pad says. Every pixel of a character is white or black as in the font, enlarged by the scale; every pixel that belongs to no character, in particular the margin, is unchanged, as are the properties. Chroma samples below a character are neutral. Nothing outside of the planes and the font is accessed. Frames without room for one character, frames of other formats and alignments or scales out of range are refused. FrameNum shows the number of the frame in decimal digits, Text the data up to the first zero.", "quantifier": "all texts of bytes, fonts, formats of 8 to 16 bit or float, frame sizes, alignments, scales and frame numbers", "why_tests_cant": "the positions depend on the length of each line, the number of lines, the size, the scale, the alignment and the subsampling together", "anchors": ["src/core/textfilter.cpp: sanitise_text, split_text, scrawl_text, scrawl_character_int, scrawl_character_float, scrawl_character_half, textGetFrame, textCreate"]}
{"id": "C92", "title": "BlankClip delivers the clip that was asked for", "statement": "Every frame of BlankClip has the requested format, size and color, and as properties only the duration, the reciprocal of the frame rate in lowest terms. A color value is the sample next to it: rounded to the nearest integer, or to the nearest float or half. Without arguments the clip is 640x480 RGB24, 24 fps, ten seconds, black; a given clip is the template and given arguments win. With keep all frames are the same frame. Colors without a sample, a wrong number of colors, sizes that are not positive or do not match the subsampling, undefined formats, and frame rates or lengths that are not positive are refused.", "quantifier": "all arguments, template clips, formats, colors and frame numbers", "why_tests_cant": "the space of formats, colors and templates is unbounded, and the rounding and the overflow matter only at its limits", "anchors": ["src/core/simplefilters.cpp: doubleToIntPixelValue, doubleToFloatPixelValue, doubleToHalfPixelValue, blankClipGetframe, blankClipCreate, memsetXX"]}
{"id": "C93", "title": "AssumeFPS changes the frame rate and nothing else", "statement": "AssumeFPS takes a frame rate from exactly one of its arguments and another clip. The result has this frame rate in lowest terms and otherwise the information of the input; every frame has the picture and the properties of the input frame, except for the duration, which is the reciprocal of the new frame rate. No rate, two rates and a rate that is not positive are refused.", "quantifier": "all clips, rates and frame numbers", "why_tests_cant": "rates are pairs of 64 bit numbers that must be reduced", "anchors": ["src/core/simplefilters.cpp: assumeFPSGetframe, assumeFPSCreate"]}
{"id": "C94", "title": "FrameEval and ModifyFrame call the function once per frame and return what it says", "statement": "For each requested frame the function is called at most once, with the number of the frame and the corresponding frames of the given clips and nothing else, whatever other requests are going on and however earlier calls ended. FrameEval returns the frame with this number, or the last frame, of the clip that the function returned; ModifyFrame the frame that it returned. Errors of the function, other values, and frames that do not have the declared format and size become errors of the request. All references to nodes and frames are given back, also if a frame cannot be made; a node is kept exactly while its frame is awaited.", "quantifier": "all histories of interleaved requests, deliveries and failures, all replies of the function, all clips", "why_tests_cant": "the calls of many requests are interleaved in ways that depend on timing, and leftovers would show up in another frame", "anchors": ["src/core/simplefilters.cpp: frameEvalGetFrameWithProps, frameEvalGetFrameNoProps, modifyFrameGetFrame", "src/core/vscore.cpp: VSNode::getFrameInternal", "src/core/vsapi.cpp: requestFrameFilter, getFrameFilter"]}
{"id": "C95", "title": "AudioResample delivers the right samples at the right places when rate or channels change", "statement": "If AudioResample changes the sample rate or the channels, and the ratio of the rates is at most 64 to 1 with not too many phases, the output has the length of the input times the ratio, rounded up. In every frame, output sample m of every channel is the filter of phase (m*q mod p) applied to the mixed input around position m*q/p, where p/q is the ratio in lowest terms and everything outside the clip is silence, converted to the output format; channels into which nothing is mixed are silent. No sample outside a frame or never written is read and no number overflows. With overflow_error, exactly the frames with clipped samples fail, and the message names the interval of samples. A ratio above 64 to 1 and a clip that would get too long are errors.", "quantifier": "all clips, lengths up to the limit, rates, layouts, formats, signals, frames; any rounding within the stated bounds, any filter coefficients and single precision arithmetic", "why_tests_cant": "frame borders, phases and the ends of the clip interact for every pair of rates; overflow would need clips of trillions of samples", "anchors": ["src/core/audioresampling.cpp: audioResampleCreate, buildResampleBank, audioResampleGetFrameFloat, floorDiv, gcd64, convertPlane, reportClipping, parseAudioResampleArgs"]}
{"id": "C96", "title": "AudioResample converts between sample formats sample by sample", "statement": "If only sample type or precision change, every output sample is the input sample of the same position and channel: for float output the nearest float of the normalized value, for integer output the nearest step (halves away from zero) of the value scaled to the output plus dither, limited to the range of the output. Dither is only used for integer output of lower precision than the source and is within half a step (rectangular) or one step (triangular). Integer samples converted to at least the same precision keep their value exactly. If nothing changes the clip itself is returned. Arguments that do not describe a legal output format are errors: rates below 1, repeated channels or channels out of range, unknown dither types, impossible precisions.", "quantifier": "all clips, formats, signals without NaN for integer output, positions, arguments; any rounding within the stated bounds", "why_tests_cant": "every pair of formats and the dither of every position would have to be covered", "anchors": ["src/core/audioresampling.cpp: convertPlane, ditherValue, ditherMix, formatToNorm, normToFormat, formatOutputShift, resolveDither, audioResampleGetFrame, audioResampleCreate, parseAudioResampleArgs, reportClipping"]}
{"id": "C97", "title": "The mixing matrix of AudioResample keeps channels, levels, balance and the two sides", "statement": "Without normalization, a channel that exists in input and output passes with weight 1 to its own place only. Every other input channel goes nowhere, into one channel of the output at 0, -3 or -6 dB, or to equal parts into two at -3 or -6 dB. If the output has a center, or left and right, every named channel except the low frequency ones is heard. Low frequency channels only go to low frequency channels, with weight 1, and nothing else goes there. Exchanging left and right in the output layout exchanges left and right in the matrix. The mix to stereo has the levels of ITU-R BS.775. Normalization divides all weights by the same number, at least 1, and the weights of each output channel then sum up to at most 1 up to rounding, so that it cannot clip; matrices that need no normalization are not changed.", "quantifier": "all pairs of layouts of up to 64 channels, any rounding of doubles within the stated bounds", "why_tests_cant": "there are 2^64 layouts on each side; rules for the two sides are separate branches", "anchors": ["src/core/audioresampling.cpp: buildMixMatrix, groundEquivalent, layoutChannels", "include/VapourSynth4.h: VSAudioChannels"]}
{"id": "C98", "title": "PEMVerifier lets exactly the frames with legal samples through", "statement": "PEMVerifier returns a frame unchanged if every sample of every plane lies within the bounds of its plane (for float clips also finite). Otherwise the request fails with an error that names the value, plane, row, column and frame of the first illegal sample in the order of planes, rows and columns. Bounds of integer clips are rounded to the nearest integer. Without arguments all values of an integer format are legal, and 0 to 1 (chroma -0.5 to 0.5) for float. A wrong number of bounds, bounds outside of an integer format and upper bounds below the lower ones are refused. Clips in single precision need the argument upper: without it the creation has undefined behaviour.", "quantifier": "all clips of 8 to 16 bit integer or 16 or 32 bit float format, all frames, all bounds including infinities and NaN", "why_tests_cant": "all pictures, formats and bounds; the result of the undefined shift is never read, so it need not show", "anchors": ["src/core/simplefilters.cpp: pemVerifierGetFrame, pemVerifierCreate", "src/core/filtershared.h: floatToIntS, is8to16orFloatFormat"]}
{"id": "C99", "title": "Frames with a four character code have the reported size and the layout of the code", "statement": "For every clip of constant format BMPSize is exactly the number of bytes PackOutputFrame fills. Formats that need no packing are the rows of luma, V, U (luma, U, V for I420 and IYUV) without padding, and the rest of the buffer stays as it was. Formats with all samples in one plane have the line length of their code (r210: multiples of 256 bytes, v210: 128 bytes for each 48 pixels), row y is line y, counted from the bottom for DIB. Formats with two planes have luma rows and then chroma rows without padding. At most one entry of the table fits a format and mode. biCompression is 0 for DIB and the code for all others. Bits per pixel of YUV formats are the bits of all samples. Bits per pixel are wrong for gray clips, the size overflows for very large clips, and a mode other than 0 can leave a format that was accepted without a code.", "quantifier": "all valid clips and modes, all frames and strides; sizes up to INT_MAX, for packed formats widths below 2^27", "why_tests_cant": "all dimensions and strides; the module runs on Windows only, in a player that allocates what the size says", "anchors": ["src/common/fourcc.cpp: BMPSize, PackOutputFrame, GetFourCC, GetBiCompression, BitsPerPixel", "src/vfw/vsvfw.cpp: ReadFrame, Read, ReadFormat"]}
{"id": "C100", "title": "Expr evaluates its expression at every pixel of all clips", "statement": "For up to 26 clips of constant format with planes of the same number and sizes, Expr makes a clip like the first one in the given format. Every sample of a plane with an expression is the value of that expression for the samples of all clips at the same place, whatever their formats, clamped and rounded for integer output; shorter clips are continued with their last frame. Planes with an empty expression are copied from the first clip if the kind of samples stays the same. The last expression counts for the remaining planes and frame properties come from the first clip. Nothing outside of the planes is read or written. Other clips, formats with other planes or depths, and more expressions than planes are refused.", "quantifier": "for all lists of clips, formats, expressions, arithmetics, frame numbers, planes and positions, and all contents of new memory", "why_tests_cant": "Combinations of 26 clips with different sample types and strides, subsampling and lists of expressions cannot be enumerated, and reads behind a row stay unnoticed in tests because rows are padded.", "anchors": ["src/core/exprfilter.cpp:170-246", "src/core/exprfilter.cpp:255-376", "src/core/expr/expr.cpp:275-287", "src/core/expr/expr.cpp:1506-1519"]}
{"id": "C101", "title": "The compiled code of Expr stays within the rows of all frames", "statement": "With compiled expressions a row is computed in groups of 8 or 16 samples, so that the last group may reach behind the width. For every processor and CPU level, every width and up to 26 clips with samples of 1, 2 or 4 bytes, the loop for a row ends, all loads and stores of samples are within the row and its padding and aligned as their instructions require, the loop stays within its arrays of pointers and offsets, and each sample of the row belongs to exactly one lane of one iteration.", "quantifier": "for all combinations of processor features and CPU levels, 32 and 64 bit programs, widths, rows, numbers and sample types of clips, and aligned addresses of planes", "why_tests_cant": "A test runs on one processor; accesses behind a row stay unnoticed because the next row or padding follows, and the relation between the AVX-512 flags that select the alignment and those that select the compiler concerns processors that are not at hand.", "anchors": ["src/core/exprfilter.cpp:186-222", "src/core/expr/jitcompiler.cpp:65-90", "src/core/expr/jitcompiler_x86.cpp:224-377", "src/core/expr/jitcompiler_x86.cpp:938-977", "src/core/expr/jitcompiler_x86.cpp:1132-1251", "src/core/expr/jitcompiler_x86.cpp:1817-1933", "src/core/vscore.cpp:2617-2625", "src/core/cpufeatures.cpp:93-115"]}

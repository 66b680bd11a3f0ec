# Formal model of liveMediaStreamer: design

## Trusted base

* Lean 4.33.0 kernel and the Lean/Mathlib definitions used in statements.
* Axioms: only `propext`, `Classical.choice`, `Quot.sound`, or fewer. `lean/Verif/Axioms.lean` checks this of
  every theorem named in MANIFEST.json when it is built; the last section lists them per theorem. No own axioms, no `sorry`, no `native_decide`, no `bv_decide`.
* The hand translation of C++/C to Lean.  Nothing is executed.  Definitions translated from a
  function of /repo cite its file and lines and state their simplifications.  Not every definition of the model files has
  such a citation: the section "Definitions without lines" lists those that have none.  Most are types of operations,
  answers and library inputs, steps that only choose between cited definitions, and arithmetic or list helpers; some are
  records of class members whose lines are still to be given.
* Global simplifications (unless a definition says otherwise): allocation never fails; log output is
  dropped; `size_t`/`unsigned`/`int` are `Nat`/`Int` when the property is not about overflow, and
  explicit wrap-around (`% 2^32`, `BitVec`, `UInt8`) when it is; pointers to frames are slot numbers;
  wall-clock reads and third-party libraries (live555, libav, x264, OpenCV, pugixml) are parameters
  or nondeterministic inputs; floating point is replaced by exact rational/real arithmetic (and so
  labelled).
* C++ undefined behaviour (out-of-bounds access, null dereference, use after free, modulo 0, invalid
  shift) and non-termination are explicit outcomes of the model, never silently totalised.

## Layout

`lean/Verif/<Area>/Model.lean` holds definitions translated from the code, `Spec.lean` (where there is one) the
independent specification, `Lemmas.lean` and others helper lemmas, `Props.lean` the property theorems with examples
meeting their hypotheses.  `Verif.lean` imports everything.  `MANIFEST.json` maps properties to theorems.
`seeded/LOG.jsonl` records the mutations of the model tried against the theorems.


## Method per property

Shape: R = round trip, I = invariant by induction over operations, A = refinement to an abstract
specification, D = decision logic.  CE = the code violates the plain claim; the negation is proved with a
concrete witness beside the strongest positive theorem, and the exception is part of the statement.

| id | modelled | method | status |
|----|----------|--------|--------|
| C01 | ring indices and slot contents of AVFramedQueue, ops getRear/addFrame/getFront/removeFrame | A: abstraction to a list; all histories | proved |
| C02 | forceGetRear/flush/doFlush with an explicit `hang` outcome | A; CE for capacity 1 | proved |
| C03 | two-thread small-step model, one index load/store per step | I over all interleavings; CE for forced use | proved |
| C04 | slot numbers handed to writer and reader | I; CE for capacity 2 | proved |
| C05 | SlicedVideoFrameQueue, SlicedVideoFrame::setSlice | A on top of C01's ring | proved |
| C06 | byte ring of AudioCircularBuffer, one array per channel | A: abstraction to one byte list per channel | proved |
| C07 | addFrame time-stamp logic, getFront time stamp, integer micros | D + I; CE for padding longer than the silence frame | proved |
| C08 | Reader with map of sharing filters | I/A over all interleavings of calls; CE for disconnect | proved |
| C09 | Reader/Writer ends, `connected` flag, heap with freed marks | I; all orders | proved |
| C10 | pool state (task map, job queue, iterator, running flags, workers) as step relation | I | proved |
| C11 | same | D + CE | proved |
| C12 | same | CE + conditional theorem | proved |
| C13 | PipelineManager maps of filters and paths; filter connect outcome nondeterministic | I over request lists; CE for shared mids | proved |
| C14 | stop() loop with iterator invalidation as UB outcome | D + CE | proved |
| C15 | event heap as multiset with any-minimum pop, clock parameter | I over histories; CE head-of-line | proved |
| C16 | framesSync and both demandOriginFrames variants | D + I | proved |
| C17 | runDoProcessFrame of the four filter classes | I | proved |
| C18 | timeline deque + disk file set | I; CE | proved |
| C19 | i2libdash context, unsigned 32-bit arithmetic | I over sample lists; CE for wrap | proved |
| C20 | byte writer of i2libisoff, every box function | R: separate box parser; structural | proved |
| C21 | write_trun/write_sidx/segmentGenerator bytes | R: separate reader | proved |
| C22 | appendNalToFrame/detectStartCode bytes | R | proved |
| C23 | createExtradata AVC/HEVC bytes | R | proved |
| C24 | ADTS header bit fields as `UInt8` | D over all headers; CE channel config | proved |
| C25 | conversion tables | finite tables + all strings; CE pixel formats | proved |
| C26 | bs_t cursor over byte list | R over op lists | proved |
| C27 | nal_to_rbsp loop | R against a separate encoder spec | proved |
| C28 | read_seq_parameter_set_rbsp prefix and updateSPSInfo | R against a separate SPS writer; CE | proved |
| C29 | Escape/UnescapeString | R | proved |
| C30 | Writer, RemoveWhitespace, tokenize, assemble | R over all trees; CEs | proved |
| C31 | mixing ring, per-position sums over an abstract commutative monoid | A; CE resync | proved |
| C32 | gain/mute/solo state machine over rationals | I; CE master | proved |
| C33 | mixSample over rationals, S16 conversion | D | proved |
| C34 | VideoMixer layering | A; CE top layer | proved |
| C35 | pasteToLayout/crop integer geometry | D; CE | proved |
| C36 | exporter/peer step relation, header bytes | I + R | proved |
| C37 | UltraGrid fragmenter | R; CE | proved |
| C38 | AU header | R; CE | proved |
| C39 | H264VideoStreamSampler buffer | A | proved |
| C40 | parseExtradata/feedHeaders | R; CE | proved |
| C41 | QueueSource state machine | I | proved |
| C42 | findStartCode/doProcessFrame split | R; CE | proved |
| C43 | qFTP map with encoder as parameter | I | proved |
| C44 | refTime logic | I | proved |
| C45 | V4LCapture status machine with nondeterministic syscalls | I; CE | proved |
| C46 | SinkManager and Connection maps, RTSP server registry | I; CE | proved |
| C47 | BaseFilter connect, share, disconnect, rounds; heap of queues and readers | I; CE | proved |
| C48 | QueueSink within receiver rounds, any library actions | I over four situations, end to end list; CEs | proved |
| C49 | AudioCircularBuffer used by two threads: byte copies and loads and stores of the counter, flush | I over all interleavings with an exact account of overwritten updates; CE | proved |
| C50 | framesSync | D; CE null reader | proved |
| C51 | representations of an adaptation set | I | proved |
| C52 | DashVideoSegmenter parseNal/manageFrame, AVC and HEVC | A against a picture list; CEs | proved |
| C53 | UltraGridAudioRTPSink header and byte swap | R; CE | proved |
| C54 | H264or5StartCodeInjector | D | proved |
| C55 | HeadDemuxerLibav time arithmetic | D; CEs | proved |
| C56 | VideoEncoderX264or5 configEvent/configure0 | D; CEs | proved |
| C57 | needsConfig/reconfigure of the encoder | I; CE | proved |
| C58 | V4LCapture getFrame copying | D; CEs | proved |
| C59 | V4LCapture frame duration average and schedule | I over all interval sequences; CE | proved |
| C60 | makeSessionSDP, makeSubsessionSDP, subsessions of addSessionEvent | R against a reader; CEs | proved |
| C61 | modifySessionName | A; CE | proved |
| C62 | H264VideoSdpParser, with the extradata parser of the transmitter | I over requests; CEs | proved |
| C63 | SourceManager sessions and sinks, RTSP answer handlers | I over histories; exact conditions; CEs | proved |
| C64 | RTSP session timers | I over timer histories; CEs | proved |
| C65 | SCSSubsessionStats, measurement schedule, doGetState | I over measurements; CEs | proved |
| C66 | ConnRTCPInstance, SinkManager::doGetState | I over measurements; CEs | proved |
| C67 | Dasher: rounds, joining of segments, readers | induction over rounds, invariants, counterexamples | proved |
| C68 | Dasher: time offset and conversion to the time base | invariant over histories; integer arithmetic | proved |
| C69 | VideoFrameQueue/AudioFrameQueue creation, frame constructors, stream defaults, forceGetRear | case analysis, integer arithmetic, induction on the budget | proved |
| C70 | VideoResampler: configuration, reconfiguration, conversion | invariant linking state to a configuration; refinement over histories | proved |
| C71 | VideoDecoderLibav: setup, decoding loop, copy to the destination | induction over the answers and over the frames; counterexamples | proved |
| C72 | AudioDecoderLibav: configuration, decoder and resampler contexts, decoding loop | induction over answers and histories; invariants; counterexamples | proved |
| C73 | AudioEncoderLibav: configuration, reader, conversion and encoding | invariants over histories; integer arithmetic; counterexamples | proved |
| C74 | The parser object kept between requests | induction over tokens and requests; balance of the two queues | proved |
| C75 | Prefixes of documents | simulation of the assembler on prefix and whole | proved |
| C76 | Controller and the events of PipelineManager, the server loop | case analysis against an independent reading of events; induction over events and connections; round trip of the report | proved |
| C77 | Delay statistics of a reader | induction over frames with a tiling relation | proved |
| C78 | Events of the filters (parameters) | refinement to a table of parameters, handler by handler | proved |
| C79 | Calls of the filters' interface | round trip through JSON numbers and texts | proved |
| C80 | DASH manifest and file names | refinement to what a player reads, invariant over histories, injectivity | proved |
| C81 | filter state reports against the events that set them | round-trip between report and event, invariant over events | proved |
| C82 | announcement and understanding of transmitted streams | decision tables for all parameters, round-trip from sender to receiver | proved |
| C83 | receiver, frame queue and transmitter joined | refinement of receiver and queue (C48, C01, C02) and of the source (C39, C41), composed by induction over rounds | proved |
| C84 | sampler, UltraGrid sink and fragmenter joined | induction over the access units, on C37, C39 and C28 | proved |
| C85 | unit assembly, time conversion, initialisation file and segmenter joined | refinement to the rule of C19 through C52, read back by the readers of C20 to C22; induction over the units | proved |
| C86 | headers, time conversion, initialisation file and segmenter joined | refinement to the rule of C19 through C24, read back by the readers of C20 to C22; induction over the events | proved |
| C87 | the segmenters of C85 and C86, the manifest of C80 and the folder joined, with every write and removal in order | invariant over the folder and the manager at every prefix of the effects; reading back by the reader of C80 and the players of C85 and C86 | proved |
| C88 | the pool of C11 and the queues of C01 joined with processFrame of a path of filters, workers interleaving at every call | one invariant over pool, queues, filters and history, by induction over the steps; abstract queues as ghost state | proved |
| C89 | the pool of C11 and the queues of C01 joined with processFrame of any network of filters, workers interleaving at every call on a reader or writer | one invariant over pool, queues, positions of the workers and history, by induction over the steps; abstract queues as ghost state | proved |
| C90 | the connection state of C47 read as a network of C89 | the invariants of both models, and a new one saying that the filters registered with a reader are those that hold it | proved |
| C91 | connect, disconnectReader, disconnectWriter and the parts of the rounds that touch readers and writers, step by step, with the mutexes | an invariant over heap, entries and the positions of the three threads, by induction over the steps; concrete schedules for the exceptions | proved |
| C92 | connect, shareReader, disconnectReader and disconnectWriter as changes of the network, together with the rounds, the pool and the queues of C89 | the invariant of the fixed network, carried over each change with the frames of the queue concerned counted anew; induction over the run | proved |
| C93 | nodes on a heap with pointers to children, the copying constructors, GetCopy, Add, Remove, Clear, Get, Has, GetCount, Set and the destructors as recursive programs over it | refinement to an environment of trees, by a representation predicate with disjoint sets of places; replacing at the end of a path | proved |
| C94 | making, removing and deleting filters around the network of C92, with every filter a step looks at | invariant: what is gone is nowhere; removal and making keep the invariant of C92 | proved |
| C95 | connectPath, handleGrouping, validCData, deletePath and the filter destructor over the connections of C47 | invariant over all histories of paths; every call refines adding or cutting a set of connections | proved |
| C96 | the registry of paths with creation, removal and the choice of ends that go, over C95 | invariant: registered paths that were connected lead, and every connection is on a registered path | proved |
| C97 | the table of streams, their descriptions as numbered objects, and the queues that point to them | invariant: exactly the descriptions of the latest streams exist | proved |
| C98 | the description of the capture device over the formats settled on | induction over the history from its end | proved |

## What each area models, and what it leaves out

Taken from the heads of the model files; the definitions below them cite their own lines, except those listed in "Definitions without lines".

**Adts/Model.lean** — ADTS headers and AAC decoder configuration
Files cited: ADTSStreamParser.cpp, ADTSStreamParser.hh, DashAudioSegmenter.cpp, DashAudioSegmenter.hh.

**AudioDec/Model.lean** — Model of the audio decoder (src/modules/audioDecoder/AudioDecoderLibav.cpp)
Configuration events and coded frames: the decoder context, the resampling context, the loop that feeds a coded
frame to the library, and the conversion into the destination frame.  What the libraries answer is an input; the
decoder of each codec, channel count and rate has its own answers, so that it shows which one a frame is handed
to.  Trusted about libswresample: a context converts with the parameters it had when swr_init last succeeded;
swr_alloc_set_opts on an existing context changes the parameters to be used by the next swr_init only, and frees
the context if it fails; swr_init fails for unknown sample formats and without channels; swr_convert answers an
error for a context that is not initialised and writes at most as many samples as it is given room for.

Undefined behaviour: decoding with a context that was never allocated, has been freed, or was not opened;
freeing one twice; converting without a context; reading past the decoded frame's planes or writing past the
destination's.  A list of answers used up while the loop goes on is reported as `hang`.  The sample values
themselves and logs are not modelled; `fCodec` is uninitialised (50-72) and a parameter of the initial state.
Files cited: AudioDecoderLibav.cpp, AudioDecoderLibav.hh, AudioFrame.hh, Frame.hh, Types.hh.

**AudioEnc/Model.lean** — Model of the audio encoder (src/modules/audioEncoder/AudioEncoderLibav.cpp)
Configuration events, the reader, and raw frames: the encoder context, the frame the library encodes from
(`libavFrame`), the resampling context and the coded frame.  The answers of the libraries are inputs; what is
trusted about libswresample is stated in `AudioDec.Model`.  About libavcodec: av_frame_get_buffer fails for a
frame without samples; avcodec_encode_audio2 refuses a packet that is too small and otherwise encodes
`nb_samples` samples of its frame.

Undefined behaviour: encoding with a context that is missing or not open, converting without a context or into
a frame without buffers, handing samples that lie in one buffer over as if they lay in planes (347-357), reading
past the raw frame's planes.  Sample values, the bit rate's effect and logs are not modelled.
Files cited: AudioEncoderLibav.cpp, AudioEncoderLibav.hh, AudioFrame.hh, Frame.hh, StreamInfo.hh.

**AudioMixer/Model.lean** — Audio mixer
Model of src/modules/audioMixer/AudioMixer.cpp.  The arithmetic on samples is a parameter (`Alg`), so that the timeline theorems
hold for the machine's single-precision arithmetic as well as for exact numbers; `Verif.AudioMixer.Level` studies the compressor
over every ordered field.

Simplifications: the input frames carry decoded samples (the bytes of an FLTP sample are its value, AudioMixer.cpp:237-239; the
conversion of S16P samples is treated in `Verif.AudioMixer.Level`); a frame in another format is one that fails to convert; the
product of a time difference and the sampling rate is assumed to fit 64 bits (differences up to six years).
Files cited: AudioFrame.cpp, AudioFrame.hh, AudioMixer.cpp, AudioMixer.hh, Frame.hh.

**AudioRing/Model.lean** — Model of `AudioCircularBuffer` (src/AudioCircularBuffer.cpp)
One caller at a time (the mutex covers only part of the code; see `Concurrent` for the
consequences).  `size_t rear, front` count bytes since the last synchronisation and are natural
numbers (64 bits); the 32-bit truncations of the sample indices and of the padding count are kept.
Products that would overflow `int64` (time differences beyond 6 years) are not represented.
Origin times are not modelled.
Files cited: AudioCircularBuffer.cpp, AudioCircularBuffer.hh, AudioFrame.cpp, AudioFrame.hh, Frame.hh, FrameQueue.hh, Types.hh.

**BitStream/Model.lean** — The bit-stream reader and writer
Simplification: pointers are indices into the buffer, so a pointer that runs past the end by more than one element, which
C++ does not allow to be formed, is an ordinary number here.
Files cited: bs.h.

**Control/Model.lean** — The control protocol (src/Controller.cpp:138-196, src/PipelineManager.cpp:484-729, src/Event.cpp)
A request is a JSON document; its events are carried out one after the other and their results collected in one object, which is
the reply.  The registries are those of `Verif.Pipeline`.  What happens inside filters enters as an environment, one for each event:
the ids made by `generate*ID`, the results of connecting and disconnecting, and the state reports of filters and readers.

The accessors of the JSON library throw when a node has the wrong type (src/Jzon.h:40-57, 103-112); nothing in the project
catches an exception, so a throw ends the process: the outcome `dies`.  Nodes are those of `Verif.Json`.  The text of the error
messages is kept; what the events delivered to a filter do there is not modelled (`Verif.Events`).
Files cited: Controller.cpp, Controller.hh, Event.cpp, Filter.cpp, Filter.hh, Jzon.cpp, Jzon.h, PipelineManager.cpp, Utils.cpp, liveMediaStreamer.cpp, s.c.

**Dash/Model.lean** — Model of the segmenter (src/modules/dasher/i2libdash.c, Dasher.cpp)
Time stamps are in units of the time base (Dasher.cpp:680-683 converts).  Null checks and the check of the
media type are not modelled.  The duration of the newest sample is not initialised by the code until the
next one arrives or the segment is closed; it is not read before, and is 0 here.
Files cited: DashAudioSegmenter.cpp, DashVideoSegmenter.cpp, Dasher.cpp, Dasher.hh, Frame.hh, VideoFrame.hh, i2context.h, i2libdash.c.

**DashTop/Model.lean** — Model of how the DASH filter joins its streams (src/modules/dasher/Dasher.cpp)
Several readers, each with its segmenter and the segment it finished last; the rounds of the filter, which
hand every new frame to its segmenter and then write the finished segments of all streams of a kind together;
the segments of the audio streams closed along with the video; and the time from which all streams count.

What a segmenter answers (no segment, or a segment with start, duration and bytes) is an input: the areas
`Dash` and `Isoff` model it.  Files are named by kind, reader and time; what stays listed and on disk
afterwards is the area `Mpd`.  A finished segment whose buffer is handed to the segmenter again is taken to
keep its bytes unless the segmenter closes another one (i2libdash.c writes only then).  The value returned by
`Dasher::generateSegment` (210-243), which for audio streams next to video reads the uninitialised pointer
`aSeg` (238), only decides on a debug message (122-124) and is not modelled.  Logs are not modelled.
Files cited: Dasher.cpp, Dasher.hh, Frame.cpp, i2libdash.c.

**Demux/Model.lean** — Model of the libav demultiplexer filter (`src/modules/headDemuxer/HeadDemuxerLibav.cpp`)
libav itself (reading packets, the AVCC to Annex B bit stream filter) is the environment: every
call gets an arbitrary answer.  The filter's own work is modelled: framing, time stamps, release of
packets and buffers.  An access outside a buffer, or a signed overflow, is undefined behaviour.
Files cited: HeadDemuxerLibav.cpp, HeadDemuxerLibav.hh.

**Encoder/Model.lean** — Model of the video encoder filter
`src/modules/videoEncoder/VideoEncoderX264or5.cpp`, `VideoEncoderX264.cpp`, `VideoEncoderX265.cpp`.
The x264/x265 libraries are the environment: every call gets an arbitrary answer; the contract they
are assumed to keep is stated where a property needs it.  Times are unbounded integers
(microseconds).
Files cited: Types.hh, VideoEncoderX264.cpp, VideoEncoderX264.hh, VideoEncoderX264or5.cpp, VideoEncoderX264or5.hh, VideoEncoderX265.cpp.

**Events/Model.lean** — Model of the event queue of a filter (src/Filter.cpp:422-467, src/Event.cpp)
`eventQueue` is a `std::priority_queue<Event>` (src/Filter.hh:265); `std::priority_queue` itself is not
code of the project, and only its contract is used: `top` is an element that is not less than any other
one, and `pop` removes it.  Which one among equals is unspecified, so every choice is considered.  Events
have an identity (`id`), used only to tell them apart.  Time is in nanoseconds (`system_clock`); the clock
may do anything between two readings.  Every function runs under the mutex of the filter, so pushes do
not happen during a poll.  What the handlers do is not modelled; `known` tells whether the action has a
handler (435).
Files cited: Event.cpp, Event.hh, Filter.cpp, Filter.hh.

**FilterConn/Model.lean** — Connections between filters (`src/Filter.cpp`)
Any number of filters.  The maps `readers` and `writers` of all filters are kept in two flat lists whose
entries name their filter, in the order of insertion (the order plays no part here).  Queues and readers
(`std::shared_ptr<Reader>`) are objects with addresses; a reader is destroyed when the last map entry
holding it goes.  The filter-specific hooks (`specificReaderConfig`, `specificWriterConfig`, `allocQueue`,
`specificReaderDelete`, `specificWriterDelete`) answer as they like.

Not modelled: pending events (`connect` runs them first, line 328-329), contents of queues (`FrameQueue`,
`SlicedQueue`, `AudioRing`), interleavings (each operation holds the filter's mutex; `QueueLife` treats the
two ends of a queue), `seqNums` (`SeqNum`). The list of reading filters kept in the queue and the one
kept in the reader are always changed together (`IOInterface.cpp:60-68, 186-206`) and are one list here.
Files cited: Filter.cpp, Filter.hh, FrameQueue.hh, IOInterface.cpp, IOInterface.hh.

**FilterEvents/Model.lean** — The events of the filters (the `…Event` functions under src/modules, src/Filter.cpp:422-467, 810-862, src/Event.cpp:51-69)
An event delivered to a filter has an action, looked up in the filter's event map, and parameters, a JSON node or none.  The
handler of the action reads the parameters and then calls a function of the filter.  This area models the reading: the result is
the list of values handed to that function (`none` at the place of a parameter that was left out, where the code puts the current
setting or a default), refusal (`return false` before anything is changed), the end of the process by an exception nobody catches,
or undefined behaviour.  What the functions called do is in the areas of the filters.  Two handlers read the state of the filter as
well, `addSession` and `gopReferenceTime` being special; the first is in `Verif.FilterEvents.Session`.

Numbers with fractions are not computed: a value `flt` is the text of the number, from which `std::stringstream >> float` reads
(src/Jzon.cpp:299-305).
Files cited: AudioDecoderLibav.cpp, AudioEncoderLibav.cpp, AudioMixer.cpp, Dasher.cpp, Dasher.hh, Event.cpp, Filter.cpp, HeadDemuxerLibav.cpp, HeadDemuxerLibav.hh, Jzon.cpp, Jzon.h, SharedMemory.cpp, SinkManager.cpp, SinkManager.hh, SourceManager.cpp, SourceManager.hh, Types.hh, V4LCapture.cpp, V4LCapture.hh, VideoDecoderLibav.cpp, VideoEncoderX264or5.cpp, VideoMixer.cpp, VideoResampler.cpp, VideoSplitter.cpp.

**FilterSync/Model.lean** — Model of input selection in a filter (src/Filter.cpp:548-734)
What `demandOriginFrames` does with what its readers show it.  A reader is represented by what the code
observes of it in one round; the behaviour of readers and queues over time is modelled in
`Verif.SharedReader` and `Verif.FrameQueue`.  Times are in microseconds (unbounded integers).
Files cited: Filter.cpp, IOInterface.cpp, VideoMixer.cpp.

**Flow/Model.lean** — Frames flowing along a path (src/Filter.cpp, src/IOInterface.cpp, src/WorkersPool.cpp)
The pool of `Verif.Pool` and the queues of `Verif.FrameQueue` put together: filters 0, 1, …, `last` in
a row, a queue between any two neighbours, and any number of worker threads that take filters from the
pool and run `processFrame`.  Filter 0 is a periodic head filter (src/Filter.cpp:787-790,
src/Filter.hh:334), filter `last` a tail filter, those between have one reader and one writer
(src/Filter.cpp:750-764).  All are regular filters that take frames as they come (`frameTime` not
positive, `sync` off: src/Filter.cpp:560-571, 593-595), connected from the start and never removed.

Workers interleave at the calls a run of `processFrame` makes on the queues (ask for the origin frame,
ask for the destination frame, process and commit, release) and at the critical sections of the pool.
Each such call is one step: the race inside the forced way of getting a destination frame, which C03
records, is outside this model.  `processEvent` (508) does not touch frames and is left out.  The
reader of a queue with one filter hands the front frame out once and keeps it until it is removed
(src/IOInterface.cpp:70-113, 126-141; C08), which is here the slot number held by the worker.
Files cited: AVFramedQueue.cpp, Filter.cpp, Filter.hh, IOInterface.cpp, WorkersPool.cpp.

**FrameAlloc/Model.lean** — Model of the frames a queue is filled with (src/AVFramedQueue.cpp, src/VideoFrame.cpp, src/AudioFrame.cpp,
src/StreamInfo.hh)

Which frames a queue allocates for a stream description, how many bytes each can hold, and what the queue
does when it has no frames.  The indices of a working queue are the area `FrameQueue`; here the slots may be
NULL.  Buffers are their sizes.  How much room a picture takes (`imageSize`) is libav's documented layout with
alignment 1 and is trusted.
Files cited: AVFramedQueue.cpp, AVFramedQueue.hh, AudioFrame.cpp, AudioFrame.hh, FrameQueue.hh, StreamInfo.hh, Types.hh, Utils.cpp, VideoDecoderLibav.cpp, VideoFrame.cpp, VideoFrame.hh, VideoResampler.cpp.

**FrameQueue/Model.lean** — Model of `AVFramedQueue` (src/AVFramedQueue.cpp) and the index/loss part of `FrameQueue`
(src/FrameQueue.hh)

A frame buffer is a slot number; what the writer put into that buffer is the value of type `α`
stored for the slot.  `size_t rear, front` are natural numbers: they stay below `max ≤ 250`, so
no machine overflow is possible.
Files cited: AVFramedQueue.cpp, AVFramedQueue.hh, FrameQueue.hh, IOInterface.cpp.

**Isoff/Model.lean** — Model of the ISO box writer (src/modules/dasher/i2libisoff.c)
Every writer copies fields one after the other (`memcpy(data + count, ...)` of `n` bytes followed by
`count += n`, the same `n`), and finally or initially stores the size of the box in front.  It is modelled
by the bytes it produces; the value it returns is their number.  The host is little-endian (so that
`htonl` swaps).  Numbers are kept unbounded and reduced where they are written.  `write_avc3` (83) has no
definition in the code.  The error returns for `size < 8` (for instance 159, 231) cannot be taken, since
no writer returns less than 8 for the three media types.
Files cited: i2context.h, i2libdash.c, i2libisoff.c.

**Json/Model.lean** — The JSON library (Jzon)
Simplifications: a C++ `char` is a Lean `Char` (the code only compares characters with ASCII ones; every byte is some
character, so a statement about all character strings covers all byte strings).  The text of error messages is left out, and
so is memory (nodes left on the stack of a failed parse are leaked).
Files cited: Jzon.cpp, Jzon.h.

**JsonStream/Model.lean** — The JSON parser kept between requests (src/Jzon.cpp, src/Controller.cpp)
`Verif.Json.Model` has one text read by a new parser.  The controller makes one parser (src/Controller.cpp:41) and
gives it every request (138-157).  The queues `tokens` and `data` are members of the parser (src/Jzon.h:421-422) and nothing
empties them: `tokenize` appends to them and `assemble` takes from them until it returns.  Here they are part of the state.
Simplifications as in `Verif.Json.Model`; the text is what `read` put into the buffer, up to the first zero byte
(`SetJson(inBuffer)`, Controller.cpp:148).
Files cited: Controller.cpp, Jzon.cpp, Jzon.h.

**JsonTree/Model.lean** — JSON trees in memory (src/Jzon.cpp)
The nodes of a tree are objects on the heap, each owned by a pointer in its parent's vector (src/Jzon.h:255-257,
319-321), the roots are variables of the program.  The children of an `Array` have no names and are given the
empty one.  Programs name variables and reach nodes by `Get`, whose references are followed anew in each step;
a step that names a variable that does not exist is no program and does nothing.  A new tree is made children
first, which only decides addresses.  Exceptions leave a step without effect.
Files cited: Jzon.cpp, Jzon.h, m.h.

**LinkRace/Model.lean** — One connection, changed by the control thread while workers run both filters (src/Filter.cpp)
Three threads, interleaved at every access to what they share: the control thread, which makes the calls
`connect`, `disconnectReader` and `disconnectWriter`; a worker running rounds of the writing filter W; and
a worker running rounds of the reading filter R (a filter is run by one worker at a time, `Pool`).  One
writer id in W, one reader id in R, queues and readers as objects with addresses; a step of a thread that
would have to wait for a mutex leaves everything as it is.  The hooks of the filters agree to everything.

Not modelled: contents of queues, other readers and writers of the two filters, shared readers, the limits
of the filters (`FilterConn`), events; that `connected` is a plain `bool` (src/FrameQueue.hh:224) read and
written without a common lock, which the C++ memory model calls a race by itself: reads and writes of it are
atomic here.  `Reader::lck` is never contended: `setConnection` of a reader comes before the reader can be
found registered in `disconnect` (src/IOInterface.cpp:178-198).
Files cited: Filter.cpp, FrameQueue.hh, IOInterface.cpp, IOInterface.hh, s.c.

**Live/Model.lean** — Model of the DASH filter with at most one video and one audio input, down to the files (src/modules/dasher/Dasher.cpp)
The areas `Record` and `RecordAudio` (what the segmenters make of the frames), `Manifest` (the document) and `Mpd` (the window) put
together in the order in which a round of the filter calls them, with everything it does to the folder in the order in which it does
it.  Files of segments can be opened and old ones removed (the areas `DashTop` and `Mpd` have what happens otherwise); those of the
initialisation may fail.  The origin of the times is a parameter (`DashTop`), as is what the segmenters report of codec, size and bit
rate.  Of the two new frames of a round the one of the video is taken first; they go to different segmenters, so that only the order
of the initialisation files depends on it.
Files cited: DashAudioSegmenter.cpp, Dasher.cpp, Dasher.hh, MpdManager.cpp.

**Manifest/Model.lean** — The manifest as a document (src/modules/dasher/MpdManager.cpp) and the names of the files it leads to (Dasher.cpp)
`Verif.Mpd` has the sliding window and the files; here is the document that `writeToDisk` builds with the tinyxml2 library, as a tree of
elements with attributes, and the texts in it.  Not modelled: how tinyxml2 turns the tree into characters and whether the file can be
written (`SaveFile`, whose result is not looked at).  A `std::map` is a list in ascending order of its keys; texts compare by
characters.
Files cited: Dasher.cpp, Dasher.hh, MpdManager.cpp, MpdManager.hh.

**Mpd/Model.lean** — Model of the DASH manifest and of the segment files (src/modules/dasher/MpdManager.cpp, Dasher.cpp)
One adaptation set with its timeline, the representations whose segments are written together, and the
files on disk.  A file is named by the base (folder and base name), the representation and the time
stamp (Dasher.cpp:586-592); names are taken to be injective in these three.  XML writing (65-114,
333-376, 435-487) is not modelled beyond the values it is given.  Deleting an existing file is taken to
succeed.
Files cited: Dasher.cpp, MpdManager.cpp, MpdManager.hh.

**Nalu/Model.lean** — Model of the NAL-unit handling of the DASH video segmenters
(src/modules/dasher/DashVideoSegmenter.cpp, DashVideoSegmenterAVC.cpp, DashVideoSegmenterHEVC.cpp)

A frame buffer has a fixed size; a frame under assembly is represented by the bytes written so far.  Times are
integers of microseconds; a missing decode time is -1 (Frame.hh:32).
Files cited: DashVideoSegmenter.cpp, DashVideoSegmenter.hh, DashVideoSegmenterAVC.cpp, DashVideoSegmenterAVC.hh, DashVideoSegmenterHEVC.cpp, DashVideoSegmenterHEVC.hh, Dasher.hh, Frame.cpp, Frame.hh, VideoFrame.hh.

**Names/Model.lean** — Names of enumerated values
`none` is the enumeration's `*_NONE` value.
Files cited: Types.hh, Utils.cpp.

**Net/Model.lean** — Frames flowing through any network of filters (src/Filter.cpp, src/IOInterface.cpp, src/WorkersPool.cpp)
As `Verif.Flow`, for filters with any number of readers and writers connected in any way (mixers,
splitters, several sources and sinks, cycles), of either role, in any mode of choosing frames.  What a
filter does with its frames, which of its readers a round concerns (`framesSync`, src/Filter.cpp:573-618)
and whether the round goes on to process (510, 536-537, 660-734) is left open: every answer is an
execution.  Several filters may share the reader of a queue (src/Filter.cpp:252-284).  Each call on a
queue or reader is one step, as are the critical sections of the pool; no filter is removed and no
connection changed.

The frame handed out again when a reader has nothing new (src/IOInterface.cpp:88-91, 104-108) is not
committed, released or counted and does not appear.
Files cited: AVFramedQueue.cpp, AVFramedQueue.hh, Filter.cpp, IOInterface.cpp, Runnable.hh, WorkersPool.cpp.

**NetStats/Model.lean** — Timers and statistics of network streams
The keep-alive and duration timers of an RTSP session (`receiver/Handlers.cpp`), the statistics of received streams
(`receiver/SourceManager.cpp`) and of transmitted ones (`transmitter/Connection.cpp`, `transmitter/SinkManager.cpp`).

* Times are microseconds.  A task runs when it is due or later; how much later is an argument.  Negative delays count as none
  (live555's `scheduleDelayedTask`).
* `double` is exact (`ℚ`): rounding is left out.
* What the library counted (bytes, packets, jitter, ...) is an argument.
* A measurement and the planning of the next one happen at the same instant.
Files cited: Connection.cpp, Handlers.cpp, Handlers.hh, Jzon.cpp, SinkManager.cpp, SourceManager.cpp, SourceManager.hh, Types.hh.

**Offer/Model.lean** — What is announced of a transmitted stream, and what a receiver makes of it
The RTP sinks chosen for a stream over plain RTP (`src/modules/transmitter/Connection.cpp:439-461, 484-522, 679-697`) and
over RTSP (`*QueueServerMediaSubsession.cpp`), and the stream information the receiver makes of an announced stream
(`src/modules/receiver/SourceManager.cpp:50-101`, `src/StreamInfo.hh:82-138`).

From the network library (not in the repository) are taken: the names and clocks of its own sinks (`H264`, `H265`, `VP8` at
90000; `MPA`, number 14, 90000; `SimpleRTPSink` as told); that a sink announces `a=rtpmap` only for numbers from 96 on, with
the channels unless there is one; that a reader takes name, clock and channels from that line, in capital letters, one channel
if none are told, and otherwise from the table of static numbers.  Numbers of samples and channels are natural numbers below
2^32 (the ranges are stated where they matter).
Files cited: ADTSQueueServerMediaSubsession.cpp, ADTSStreamParser.cpp, AudioQueueServerMediaSubsession.cpp, Connection.cpp, CustomMPEG4GenericRTPSink.cpp, H264QueueServerMediaSubsession.cpp, H265QueueServerMediaSubsession.cpp, MPEGTSQueueServerMediaSubsession.cpp, QueueServerMediaSubsession.cpp, SinkManager.cpp, SourceManager.cpp, StreamInfo.hh, VP8QueueServerMediaSubsession.cpp.

**Paths/Model.lean** — Connecting and deleting paths (src/PipelineManager.cpp)
A path leads from a writer of its origin filter through its own filters, in order, to a reader of its
destination.  Here it is followed through all the calls on filters that `connectPath` and `deletePath` make;
`FilterConn` is what these do.  The registries of filters and paths are the subject of `Pipeline`: here all
filters named are there, as `createPath` has seen (231-285).
Files cited: Filter.cpp, Filter.hh, FrameQueue.hh, IOInterface.cpp, Path.hh, PipelineManager.cpp.

**Pipeline/Model.lean** — Model of the pipeline manager (src/PipelineManager.cpp, src/Path.cpp)
The two registries of the manager, the tasks of its worker pool and the heap objects (filters and
paths) they point to.  A filter object is a `Nat` (its allocation number), so deleting an object twice
or using it afterwards is visible as undefined behaviour.  What happens inside a filter (its readers,
writers, queues) is not part of this model: the result of `connect*`/`handleGrouping` and of
`disconnectReader`, the ids made by `generate*ID` and whether a type name is known enter as part of the
request, and every value of them is considered.  The effects inside the pool (queue, workers) are
modelled in `Verif.Pool`; here the pool is the map `runnables`.  `std::map`s are association lists in
insertion order: the only iteration whose order matters (the one in `stop`) is treated for every order.
Files cited: Path.cpp, Path.hh, PipelineManager.cpp, PipelineManager.hh, Runnable.cpp, WorkersPool.cpp.

**Pool/Model.lean** — Model of the worker pool (src/WorkersPool.cpp, src/Runnable.cpp)
A runnable is a pointer (`Nat`) with an immutable id.  Worker threads and callers interleave at the
granularity of the critical sections of `mtx`; the polling loop of `removeTask` reads the running
flag without the lock.  Condition variables only affect when a worker looks again, so a worker may
look at any moment.  Using a deleted runnable is undefined behaviour; the lookups in the set of queued
tasks (src/WorkersPool.cpp:34, 43) compare ids of queued runnables and are taken to touch all of them.
The number of workers is unbounded.  `stop` (150-160) is not modelled.
Files cited: PipelineManager.cpp, Runnable.cpp, Runnable.hh, WorkersPool.cpp, WorkersPool.hh.

**QueueLife/Model.lean** — Model of the two ends of a queue (src/IOInterface.cpp) and of its deletion
Any number of writers, readers and queues.  Queues live on a heap: `new` gives a fresh address,
`delete` of anything but a live queue and any use of a dead one are undefined behaviour.  Contents of
the queues, delay statistics and the reader's frame are modelled elsewhere (`FrameQueue`,
`SharedReader`).
Files cited: Filter.cpp, FrameQueue.hh, IOInterface.cpp, IOInterface.hh.

**Rbsp/Model.lean** — Extraction of the raw payload of a NAL unit
Files cited: h264_stream.c.

**ReaderDelay/Model.lean** — Model of the delay statistics of a `Reader` (src/IOInterface.cpp:32-36, 122-169, src/Frame.cpp:52-59)
One step for each frame all filters have released (`measureDelay` is called once then, 130-131; who releases what is the subject
of `Verif.SharedReader`).  Durations are 64 bit counts of microseconds, whose overflow is undefined.  The clock enters as the age of
the frame in nanoseconds.
Files cited: Frame.cpp, Frame.hh, IOInterface.cpp, IOInterface.hh.

**Record/Model.lean** — Model of one video input of the DASH filter (src/modules/dasher/Dasher.cpp, DashVideoSegmenter.cpp)
The areas `Nalu` (units to frames), `Isoff` (bytes of the files) and `Dash` (frames to segments) put together in the order in
which the filter calls them.  The origin of the times is a parameter here (the area `DashTop` models how it is chosen, and how
the finished segments of several inputs are written together; with a single video input each is written when it is finished).
The context of the segmenter, which the code creates with the first frame (DashVideoSegmenter.cpp:72-74), is there from the
start, empty.  Logs are not modelled.
Files cited: DashVideoSegmenter.cpp, DashVideoSegmenter.hh, DashVideoSegmenterAVC.cpp, DashVideoSegmenterHEVC.cpp, Dasher.cpp, Dasher.hh, Frame.hh, i2libdash.c.

**RecordAudio/Model.lean** — Model of one audio input of the DASH filter (src/modules/dasher/Dasher.cpp, DashAudioSegmenter.cpp)
The areas `Adts` (headers and decoder configuration), `Isoff` (bytes of the files) and `Dash` (frames to segments) put together
in the order in which the filter calls them.  The origin of the times is a parameter (the area `DashTop` models how it is
chosen).  The context of the segmenter, created with the first frame (DashAudioSegmenter.cpp:66-68), is there from the start,
empty.  Logs, the reporting to the manifest (C51) and the copies of the configuration that are never freed
(i2libisoff.c:190) are not modelled.
Files cited: DashAudioSegmenter.cpp, DashAudioSegmenter.hh, Dasher.cpp, Dasher.hh, i2libdash.c, i2libisoff.c.

**Recv/Model.lean** — Receiving: `QueueSink` (`src/modules/receiver/QueueSink.cpp`) in a round of the receiver
One stream of the receiver: the sink of its port, the queue of its writer (`FrameQueue`), and the rounds of the
receiver (`SourceManager::doProcessFrame`, `SourceManager.cpp:128-145`) within `serverProcessFrame`
(`Filter.cpp:526-546`).  The network library is represented by what it may do in `SingleStep`: run the task the
sink scheduled, and complete the fetch the sink asked for with a frame it received, in any number and order.
Streams of other ports touch neither this sink nor this queue.

Not modelled: the origin time and the sequence number given to a committed frame (`Filter.cpp:800-805`,
`SeqNum`); overflow of the 64-bit time (seconds beyond 2^43).  A reader may take frames between two rounds; in
the code it may also do so during one, where it only lowers the number of frames (`FrameQueue`, `Concurrent`).
Files cited: Filter.cpp, Frame.hh, Handlers.cpp, QueueSink.cpp, QueueSink.hh, SourceManager.cpp.

**Relay/Model.lean** — A received stream sent on: `SourceManager` → frame queue → `SinkManager`
The two filters joined by one queue, each modelled before (`Recv`, `Sources`), run one after the other in any order.  What the
receiver's library side does is in the lists of `Recv.Act`, what the packetisers of the transmitter do in the lists of
`Sources.Act`.

Simplification: a frame is taken from the queue before the transmitter works on it; in the code it stays in its slot until the
round is over (`Filter.cpp:526-546`, `removeFrames` last), where the writer never gets it (`FrameQueue`, C04).  One reader and one
source; other streams share nothing with them but the loop.
Files cited: Filter.cpp, H264VideoSdpParser.cpp, Handlers.cpp, SinkManager.cpp.

**Reports/Model.lean** — The filters' entries in the state report, and the events that set what they report
An event is read as in `Verif.FilterEvents` and carried out as in the area of the filter; the report is what `doGetState` adds to the
filter's entry.  A `float` is a rational number; the text it is printed as and the number read from a text are parameters (`Floats`).
Receiver and transmitter are in `Verif.NetStats`; the reports of the demuxer, the capture device, the shared memory and the video
decoder, none of which has a setting that an event could restore, are not modelled.
Files cited: AudioDecoderLibav.cpp, AudioEncoderLibav.cpp, AudioMixer.cpp, Dasher.cpp, Dasher.hh, Filter.cpp, Jzon.cpp, MpdManager.cpp, Types.hh, Utils.cpp, VideoEncoderX264or5.cpp, VideoEncoderX264or5.hh, VideoMixer.cpp, VideoSplitter.cpp, VideoSplitter.hh, c.h.

**Resampler/Model.lean** — Model of the video resampler (src/modules/videoResampler/VideoResampler.cpp)
Configuration events and frames; the conversion context of libswscale is the geometry and formats it was made
for.  The answers of the libraries are inputs, with what their documentation promises: no context and no
layout for unknown formats and empty pictures.  Undefined behaviour: scaling with a context made for other
pictures than those handed to it, reading past the source frame, writing past the destination frame.  The
constructor reads and `configEvent` keeps the uninitialised `outPixFmt` (41, 199): its value is a parameter of
the initial state.  Contexts replaced at line 93 are never freed (a leak, not modelled); neither are logs.
Files cited: Filter.hh, Frame.hh, Types.hh, VideoFrame.hh, VideoResampler.cpp, VideoResampler.hh, f.h.

**Retire/Model.lean** — Filters that come and go while frames flow (src/PipelineManager.cpp, src/WorkersPool.cpp, src/Filter.cpp)
`Rewire` follows the frames while connections are made and cut between filters that stay.  Here filters are
made, given to the pool, removed from it and deleted while the others run.  To use a filter that is not there
is undefined.
Files cited: Filter.cpp, PipelineManager.cpp, Runnable.cpp, WorkersPool.cpp.

**Rewire/Model.lean** — Connections that change while frames flow (src/Filter.cpp, src/IOInterface.cpp, src/WorkersPool.cpp)
`Net` follows the frames through a network that stays as it is.  Here filters are connected, begin and cease
to share readers and are disconnected while the others run.  Each such call is one step; that its parts may
be taken as one is the subject of `LinkRace`, as is what happens when a filter concerned is at work.  No
filter is removed; `Retire` adds that.
Files cited: Filter.cpp, IOInterface.cpp, WorkersPool.cpp.

**Sdp/Model.lean** — Session descriptions of the receiver
The text `SourceManager` makes for a session of plain RTP streams (`src/modules/receiver/SourceManager.cpp:363-408` with
the event 325-348), and the change of name made to a description got from a server (`Handlers.cpp:328-342`).

A C++ `char` is a Lean `Char` (only compared with ASCII ones).  What the library makes of the text is not modelled; the
specification has a reader of its own.
Files cited: Handlers.cpp, SourceManager.cpp, Utils.cpp.

**SeqNum/Model.lean** — Model of sequence numbering (src/Filter.cpp:201-217, 286-319, 766-808, 863-879)
A filter's counters `seqNums` and one round of `regularProcessFrame`/`serverProcessFrame` (501-546) from
the point where the destination frames have been demanded: what the specific `doProcessFrame` did is an
input (its result and the frames it marked as consumed), every combination of which is considered.  A
writer is taken to stay connected during a round.  `size_t` is 64 bits.
Files cited: Filter.cpp, Filter.hh.

**Sessions/Model.lean** — Sessions of the receiver
`src/modules/receiver/SourceManager.cpp` and the handlers of RTSP answers (`Handlers.cpp`): the map of sessions, the map of
sinks by port, the stored stream descriptions, and the writers connected to other filters (whose ids are the ports).

* Session ids are numbers in the order of the strings (the map's order matters in `allocQueue`).
* Sinks are objects with addresses; a closed one is freed.
* What the library does is an argument: whether a text could be read, which streams could be set up, and when answers and ends
  of streams arrive.  A stream that could not be set up has no RTP source (live555's `MediaSubsession::initiate` takes it back).
* `Medium::close` of the null pointer does nothing; of a freed object it is undefined, and so is any use of it.
* Frames are in `Recv`, the limit of writers and other things of connections in `FilterConn`, statistics and keep-alives are not here.
* Handlers run by the library within a round are operations of their own here.
Files cited: Filter.cpp, Handlers.cpp, SourceManager.cpp, SourceManager.hh.

**SharedMem/Model.lean** — Model of the shared memory exporter
src/modules/sharedMemory/SharedMemory.cpp and .hh.

Simplifications: memory is sequentially consistent at byte granularity (the code uses plain accesses without barriers); numbers
are stored by a little-endian host; the creation and removal of the segment, the copy of the frame to the filter's output
(lines 172-185) and the error messages are left out.  A frame's buffer is its data followed by whatever the buffer held before.
Files cited: Frame.hh, SharedMemory.cpp, SharedMemory.hh, VideoFrame.hh, f.h.

**SharedReader/Model.lean** — Model of `Reader` (src/IOInterface.cpp:32-253) shared by several filters
The reader is on a queue of frames (`AVFramedQueue`, model `FrameQueue.Ring`) whose writer stays
connected; disconnection of the writer is the subject of `QueueLife`.  Each call is atomic (the
reader's mutex).  Delay statistics are not modelled except that they dereference the held frame.
Files cited: FrameQueue.hh, IOInterface.cpp, IOInterface.hh.

**Sink/Model.lean** — The transmitter's readers and connections (`src/modules/transmitter/SinkManager.cpp`, `Connection.cpp`)
The maps `readers` (of `BaseFilter`), `sources` with `replicators` (always changed together, and one list
here) and `connections`, and the sessions of the RTSP server.  The server is the library's: a session is
registered under its name, registering another one of the same name removes and deletes the first
(`RTSPServer::addServerMediaSession`), deleting a session removes whatever is registered under its name
(`deleteServerMediaSession`); a session still used by a client is deleted when the client leaves, here it
counts as deleted at once.  Sinks, framers and sockets are assumed to be created when asked for (the search
for server ports, `Connection.cpp:388-397`, ends).

Not modelled: the number of readers allowed (`FilterConn`), packets and replicas (`Sources`), statistics,
parsing of the events (528-641, `Json`).
Files cited: Connection.cpp, Connection.hh, Filter.cpp, Filter.hh, MPEGTSQueueServerMediaSubsession.cpp, SinkManager.cpp, SinkManager.hh, StreamInfo.hh, Types.hh.

**SlicedQueue/Model.lean** — Model of `SlicedVideoFrameQueue` (src/SlicedVideoFrameQueue.cpp) and `SlicedVideoFrame`
(src/VideoFrame.cpp:105-141)

The frames of the ring are the interleaved frames the reader gets; the picture being built by the
encoder lives beside the ring.  A `Slice` of the code is a pointer into the encoder's output with a
length; it is modelled by the bytes pointed to (the encoder's output buffer stays valid until its
next call, which comes after the commit).
Files cited: Filter.cpp, Frame.hh, SlicedVideoFrameQueue.cpp, SlicedVideoFrameQueue.hh, VideoEncoderX264or5.cpp, VideoFrame.cpp, VideoFrame.hh.

**Sources/Model.lean** — Model of the sources that feed the transmitter's packetisers
src/modules/transmitter/QueueSource.cpp, H264or5QueueSource.cpp, H264VideoStreamSampler.cpp, H264or5StartCodeInjector.cpp and the
frame loop of SinkManager.cpp.

The library side (live555's `FramedSource`) is modelled as it is documented: a request stores the buffer and its size and
calls `doGetNextFrame`; asking again while a request is outstanding aborts; delivering ends the request; stopping ends it too.
A consumer that asks again from inside the delivery does so as the last action of `deliverFrame`, so it is the next operation.
Not modelled: `saveCopyOfSPS`/`saveCopyOfPPS` of the library; `updateSPSInfo` is covered by the area `Sps`.
Files cited: Frame.hh, H264VideoStreamSampler.cpp, H264or5QueueSource.cpp, H264or5QueueSource.hh, H264or5StartCodeInjector.cpp, QueueSource.cpp, QueueSource.hh, SinkManager.cpp, Types.hh.

**Sps/Model.lean** — Reading a sequence parameter set, and what the sampler makes of it
Simplifications: `int` members that only ever receive flags, fixed-width values or unsigned codes are naturals (the reader
has no defined outcome for codes from 2^31 - 1 on, see `BitStream.readUe`).  The members of `sps_t` that are never read again
after parsing are kept all the same; the flags for default scaling matrices are left out because the code passes them by
value and never sets them.
Files cited: H264VideoStreamSampler.cpp, H264VideoStreamSampler.hh, bs.h, h264_stream.c, h264_stream.h.

**UltraGrid/Model.lean** — Model of the payload formats written by the RTP sinks
src/modules/transmitter/UltraGridVideoRTPSink.cpp (the fragmenter), UltraGridAudioRTPSink.cpp and CustomMPEG4GenericRTPSink.cpp
(the payload headers).

Simplifications: the frame rate enters as its rounded value and the flag of the 1.001 rates; the RTP header itself, the
timestamps and the sending are the library's.
Files cited: CustomMPEG4GenericRTPSink.cpp, UltraGridAudioRTPSink.cpp, UltraGridVideoRTPSink.cpp, UltraGridVideoRTPSink.hh.

**V4L/Model.lean** — The capture device (`src/modules/V4LCapture/V4LCapture.cpp`)
The operating system is a set of answers: every system call made by an operation may succeed or fail
independently, as the fields of `Answers` say, and the driver may settle on any size, format and frame
rate.  `Kern` is what the operating system holds for the process; it is not part of the program and only
used to state what becomes of the descriptor, the mappings and the stream.

Not modelled: `std::string` handling, the log, `VIDIOC_CROPCAP` (line 366-371, its result is ignored),
interrupted calls (`xioctl` repeats them, 580-588), `calloc` failure (286-291).
Files cited: AVFramedQueue.cpp, Types.hh, V4LCapture.cpp, V4LCapture.hh, VideoFrame.cpp, fmt.h.

**VideoDec/Model.lean** — Model of the video decoder (src/modules/videoDecoder/VideoDecoderLibav.cpp)
The decoder context through configuration, frames and decoding errors; the loop that feeds a coded frame to the
library; the copy of the decoded picture to the destination frame.  What the library answers is an input: the
decoder of each codec has its own answers, so that it shows which decoder a frame is handed to.  Undefined
behaviour: decoding with a context that was never allocated, has been freed, or was not opened (the library
requires an opened one), freeing a context twice, and a picture larger than the destination frame.  A list of
answers used up while the loop goes on is reported as `hang`.  The extra data shared with the queue's stream
information (165-167), threads of the library, logs and memory of the packet are not modelled.
Files cited: Frame.hh, VideoDecoderLibav.cpp, VideoDecoderLibav.hh, VideoFrame.hh, d.h.

**VideoMixer/Model.lean** — Video mixer and video splitter
Model of src/modules/videoMixer/VideoMixer.cpp and src/modules/videoSplitter/VideoSplitter.cpp.

Simplifications: fractions are exact rational numbers (the code uses `float`; the region theorems are stated on the resulting
whole numbers as well, so they do not depend on rounding); products fit an `int`; pictures are functions from column and row to a
pixel; scaling and weighted addition by OpenCV are parameters (`Lib`); a rectangle outside its picture, or a scaling to an empty
picture, makes OpenCV throw: outcome `abort`.
Files cited: Frame.hh, Types.hh, VideoFrame.hh, VideoMixer.cpp, VideoMixer.hh, VideoSplitter.cpp, VideoSplitter.hh, c.h, r.h.

**UltraGrid/Sink.lean** — Model of the UltraGrid video sink
src/modules/transmitter/UltraGridVideoRTPSink.cpp: the sink around the fragmenter, fed by the sampler
(H264VideoStreamSampler.cpp).  Units arrive one at a time; what leaves are RTP payloads with their marker and time.

Simplifications: between two units all packets of the access unit that was completed are sent (the library asks for the next one
when the last has gone).  The frame rate is a whole number or unknown (C28); for a whole number `r` the comparison of 244-248,
`|r - r/1.001| < 0.005` in `double`, is taken exactly, which is `r ≤ 5` (the values next to the limit, 0.004995 and 0.005994, are far
from it).  The sequence number and the rest of the RTP header are the library's.
Files cited: H264VideoStreamSampler.cpp, H264VideoStreamSampler.hh, UltraGridVideoRTPSink.cpp, UltraGridVideoRTPSink.hh.

## Findings: where the code departs from the plain claim

Each is proved of the model by one of the theorems named (a concrete history or input, or the exact condition).

* **C02** Forced writes always get a slot, drop only the most recent frame and are counted: (For capacity 1 the call does not return: recorded as a counterexample.)
* **C03** A producer and a consumer thread may use one frame queue without locks: Forced use does not enjoy this: there is an interleaving in which already released frames are delivered again (recorded as a counterexample).
* **C04** The slot being written is never the slot being read: (With two frames a forced write hands the reader's buffer to the writer: recorded as a counterexample.)
* **C06** Audio ring buffer returns exactly the bytes written, per channel and in order: (An input behind a gap whose silence fits but whose samples do not is refused after the silence was stored: recorded.)
* **C07** Audio ring buffer output is correctly time-stamped, with gaps filled by silence and late frames dropped: (Recorded exceptions: a gap longer than 100 ms that is not a reset reads beyond the silence buffer; a frame handed out again after a failed request carries the next frame's time; after 2^32 samples the clock wraps.)
* **C08** Filters sharing one reader each see every frame exactly once: (If a filter disconnects while it is the only one that has not yet released the current frame, the others never get a new frame again: recorded as a counterexample.)
* **C09** A queue is destroyed exactly once, after both ends have let go: (Two recorded exceptions, each a leak: both ends testing the connected flag before either clears it; a writer connected directly to a reader that is already connected.)
* **C11** A notification to a filter is never lost by the pool: (Recorded exception, with the exact condition: a pick always deletes the front of the queue, so a notification that arrives while the filter is running and reaches the front is deleted when another filter is picked; if nothing is pending when the filter is done, it is not run again, while the other one is run twice.)
* **C12** A removed task is never run again: (Recorded exceptions, each with a counterexample history: removal does not clear a queued job of the task; removeTask may return before the worker that ran the task has stopped using it; a new task under the same id is accepted but not scheduled while the old job is queued.)
* **C13** Pipeline graph stays consistent under every request sequence: (Recorded exceptions, proved: removing a path with a shared intermediate filter leaves the other path with a missing filter and impossible to remove; connecting a path whose end went missing that way dereferences a null pointer. Removing an unknown path reports success and does nothing.)
* **C14** Stopping the pipeline releases everything: (Recorded exceptions, proved: with two or more paths a stop never succeeds, the second deletion reads the deleted first path; a refused stop has already ended the worker threads.)
* **C15** Events run in time order, never early, each exactly once: (Recorded exception, proved: such an older event can hold back a due one arbitrarily long.)
* **C16** Time-paced filters advance their output clock monotonically and on a fixed grid: (Recorded exceptions: a late or early input that arrives together with an on-time one is handed on with it, and an early input seen alongside a late one is consumed without being shown.)
* **C17** Sequence numbers identify source frames end to end: (Recorded exception: a frame marked ready in a round that then reports failure is sent with a stale number.)
* **C18** The DASH manifest window never exceeds its bound and slides in order: (If the bound is lowered by reconfiguration, several are dropped but only the last is reported; a segment starting at time 0 is never cleaned; a start time announced twice removes a file that is still listed; a changed folder or base name, a removed representation, or a failed write leaves files behind: recorded as counterexamples.)
* **C19** DASH video segments start at a key frame, reach the target duration and tile the timeline: Recorded exceptions: after a frame longer than the target nothing is closed (an unsigned subtraction wraps); with reordered frames segments overlap or leave gaps; audio start times are cut to 32 bits.
* **C20** Generated MP4 init and media segments are well-formed box trees: Recorded exceptions: the number for the next track is that of the track in use; the sampling rate of sound has the time base before the point and the rate behind it; collected data close to the size of the output buffer overflows it; audio codec data of 105 bytes or more makes the descriptors unreadable.
* **C22** Length-prefixed video samples decode back to the original NAL units: (Recorded exceptions: the size check is made modulo 2^32, so a unit within a few bytes of 2^32 passes it and overruns the buffer; an AVC unit declared shorter than the start code its buffer shows is undefined behaviour.)
* **C23** Decoder configuration records carry the parameter sets unchanged: (Recorded exceptions: the AVC profile, compatibility and level bytes are the first three bytes of the stored SPS, NAL header included, so they are off by one and the profile is the NAL header; the HEVC profile and level are constants; an AVC SPS shorter than 3 bytes is read out of bounds.)
* **C24** AAC stream headers are translated faithfully into decoder configuration: (Recorded exceptions: the channel configuration drops a shift, so configurations 4-7 are wrong; the RTP path prints the configuration text of five characters into an array of two, undefined behaviour for every valid header; a new initialisation segment is made for every frame.)
* **C25** Textual names of codecs, formats, filter types and roles convert back to the same value: (Pixel formats do not satisfy this: the printed names are not the accepted names; recorded as a counterexample with the exact set that does.)
* **C26** Bit-level reader inverts the bit-level writer: (Recorded: unsigned codes from 65535 on cannot be written, because the writer shifts a 32-bit value by 32 bits or more; the reader overflows on codes with 31 or more leading zeros; raw bytes are copied at the current byte whatever the bit position within it, so they must be byte-aligned.)
* **C27** Emulation-prevention removal recovers the raw payload: (Recorded: a payload ending in an odd number of zero bytes, which no legal payload does, is not recovered.)
* **C28** Picture dimensions announced by an SPS are recovered: (Recorded: profiles 244, 44, 83, 86, 118, 128, 134, 135, 138, 139 are not recognised as carrying the high-profile extension and are misread; transmitted scaling lists are not skipped and shift everything after them; interlaced and non-4:2:0 cropping uses the wrong unit; oversized cycle counts write past an array; units from 2^30 on overflow.)
* **C30** A JSON document written by the library is read back equal: Recorded exceptions: a string ending in a backslash, a key with a bare quote, and a number in exponent notation (which setting a large floating value produces) are not read back; an unclosed document is accepted and two documents in one text are merged; a string given to a value has escape sequences in it interpreted, so only strings without backslashes are certain to be stored as given.
* **C31** The audio mixer sums every channel's sample at its own time position: Recorded exceptions: above the threshold the order of arrival matters; after a restart unplayed samples are mixed into the new timeline, at their old position modulo the buffer size; a frame is refused for lack of room although its place is free when another channel is ahead; a frame from before the origin restarts the timeline instead of being late; at the end of the 32-bit counters the timeline restarts.
* **C32** Mixer volumes stay in range and commands do what they name: Recorded exceptions: mute and solo forget the previous gains, so they cannot be undone; the master gain takes any value.
* **C33** Mixed audio never leaves the representable range: Recorded exceptions: a master gain above 1 takes the mix out of range; exactly full scale does not fit 16 bits.
* **C34** The video mixer paints every enabled channel exactly once in layer order: (Recorded: a channel on the top layer number is accepted and never painted.)
* **C35** Mixer and splitter regions stay inside the picture: (Recorded: positions above 1 and sizes below a pixel are accepted by the configuration and make the imaging library throw when painted; the splitter announces a third of the bytes it writes; a crop whose sums exceed an int overflows.)
* **C36** Shared-memory export never overwrites a frame the peer is reading and the header is readable: (Recorded: a coded picture is shown under the number and time of the next one; without delimiters nothing is ever offered; units of other types are dropped; a picture larger than the area is written beyond its end; sequential consistency is assumed, the code has no barriers.)
* **C37** UltraGrid video packets reassemble to the frame: (Recorded: a payload size of exactly the header makes no progress; the first packet copies the whole frame behind its header whatever the packet size, so a frame that does not fit in the buffer offered with 48 bytes to spare overflows it.)
* **C38** AAC over RTP announces the correct access-unit size: (Sizes of 8192 bytes and more are announced modulo 8192: recorded.)
* **C39** H.264 access units are regrouped losslessly: (Recorded: the delimiters are not passed on and the output carries the time of the delimiter after it; a unit that does not fit is lost and splits its access unit; a buffer left without room for the next prefix is overrun.)
* **C40** Parameter sets are extracted from Annex-B extradata: (Recorded: the search reads three bytes behind the extradata, which are behind the end of the allocation, so the property is stated for extradata followed by three readable bytes, of any value; sizes are announced modulo 256; zero bytes in front of a start code stay with the unit.)
* **C41** Queue sources hand each frame to the network exactly once and account for truncation: (Recorded: H.264 and H.265 sources answer again with the same frame if asked before the release; frames shorter than a start code can make the size wrap; a running packetiser that does not ask blocks the round for all.)
* **C42** The demultiplexer splits an H.264 packet into its NAL units: (Recorded: a last unit that takes at most seven bytes with its start code is merged with the unit before it; three leading zero bytes give a spurious frame; a packet without start code, or larger than the frame, is undefined behaviour; an AVCC stream without converter is announced as framed though it is not.)
* **C43** Encoded video keeps its source time stamps despite reordering: (Recorded: the first coded pictures of an encoder with reordering get the decoding time 0; entries jumped over when the encoder is opened anew, and those of pictures with too many NAL units, are never released.)
* **C44** Key frames are forced on a common time grid: (Recorded: a reference long past makes every picture an intra picture until it is caught up; encoders without reference disagree; a request is lost when the encoder fails.)
* **C45** Capture device follows its state machine: (Recorded: a start failure followed by an unmapping failure keeps it open; reconfiguring a capturing device passes the force flag as frame rate, dividing by zero without the flag; a reconfiguration whose stop or unmapping fails reports success; capturing from unmapped buffers and unmapping twice follow; a failed mapping leaks the buffers mapped.)
* **C46** Transmission connections stay consistent with readers: Recorded exceptions: a second RTSP connection of the name of one there is accepted and deletes the first one's session, after which removals use freed memory; a refused RTSP request with such a name takes the existing stream off the server; a transport stream over RTP asked for a first reader it cannot carry is accepted without it; removing a reader used by no connection reports failure and keeps its source, so that a later reader of that id with an unsupported codec is accepted; a reader numbered -1 is not reported by a transport stream and leaves the connection behind; a refused reader leaves an entry whose removal dereferences null.
* **C47** A filter's connections respect its declared limits: Recorded exceptions: sharing ignores the maximum number of readers; when the reading filter refuses the configuration a null reader stays, which takes the slot and makes disconnecting it, sharing it or a paced round undefined; whenever the reading side refuses, the queue already made is lost; reconnecting under the same id before the reading filter has had a round is refused; a filter given one reader twice can disconnect only one of them; connecting a filter to itself blocks for ever.
* **C48** Receiver hands over complete network frames with correct time: Recorded exceptions: the frame that completes the fetch under way when the writer is connected is committed with its length and time over stale bytes, with a length not limited by the frame; a stream disconnected while its sink waits for a frame is never received again, reconnecting included; a queue freed while the library receives into it is written after the free.
* **C49** Writer and reader threads may use one audio ring at the same time: (Recorded: the writer updates the count outside the lock, so overlapping updates do corrupt it in both directions: bytes are delivered twice, or present bytes are never delivered.)
* **C50** Synchronised inputs wait for each other within a margin: (Recorded: a filter with a frame time looks at every input as soon as one is selected; no filter that synchronises has a frame time by default. A failed reader configuration leaves a null entry whose use in this decision is undefined behaviour: recorded.)
* **C51** The manifest describes the current representations: (The maxima never shrink when a representation gets smaller or is removed: recorded.)
* **C52** The DASH video input assembles frames from NAL units: (Recorded exceptions: H.264 data partitions and H.265 sub-layer, leading and broken-link slices are treated as unknown and lost; an SEI after the slices loses the intra mark; pictures with equal or decreasing times and no delimiter are merged; with two picture parameter sets per intra picture a configuration record combines a new sequence set with an old picture set.)
* **C53** UltraGrid audio packets carry header and samples in network order: (Recorded: a frame that must be split aborts the process.)
* **C55** Demultiplexed frames carry the time of their packet: (Recorded: a packet without time stamp gets the last ticks of its stream unscaled, so time can run backwards; a time before zero of a file, or a missing decoding time, overflows.)
* **C56** A configure event changes exactly the encoder settings it names: (Recorded: after frame rate zero any later event, even an empty one, sets a frame time; negative numbers are taken as huge ones.)
* **C57** Pictures are encoded by an encoder of their own size and format: (Recorded: when opening fails once for a new size, later pictures of that size are dropped without another attempt.)
* **C58** A captured picture reaches the frame whole: (Recorded: larger pictures overrun the frame; of planar pictures only the luma and of compressed ones nothing is copied.)
* **C59** The capture pace follows the device: (Recorded: a pause between two captures counts as an interval.)
* **C60** Descriptions made for plain RTP streams read back: (Recorded: names are not checked, so that a space in a medium makes a description nobody can read; negative numbers come out as large ones.)
* **C61** Renaming a session keeps the rest of its description: (Recorded: of a description whose lines end with a newline alone all lines up to the next name run together into one, so that its streams are lost.)
* **C62** Parameter sets of a session description reach the stream: (Recorded: longer sets overrun the extradata, exactly when they exceed 128 bytes; the first requests complete with a frame size nobody has set; a buffer of less than four bytes is overrun; connected earlier the stream lacks sets.)
* **C63** Sessions of the receiver can be added, connected and removed within limits: (Recorded: removal of a session made from a text with a stream, of one with a connected filter, not yet described, ended or failed, a round or disconnection after a connected stream ended, a connection while a session with a smaller id waits for its description, and a text that cannot be read or whose stream cannot be set up are undefined; a session that failed or is over keeps its id for ever; so does a request refused because of a port in use; a port used again is connected with the description of its old stream; removing a session takes away the sink of another one's stream at a common port.)
* **C64** RTSP servers hear from the receiver in time: (Recorded: when the duration is over the client is freed with its keep-alive still planned, which then uses freed memory; durations from 4293 seconds on are undefined; timeouts from 4300 seconds on wrap around, so that keep-alives may be sent without pause.)
* **C65** Statistics told of received streams are those of the stream: (Recorded: packets arriving out of order give negative losses; bytes received before measurement began count in the average, which can exceed the greatest rate; the least jitter told is never above 40000; a clock set back hides what came; after a pause of 36 minutes no measurement is made for 35 more.)
* **C66** Statistics told of transmitted streams are those of the stream: (Recorded: one object is used for all streams of a connection, so that a reader that takes the first member, as this project's own, gets the first stream's values for all of them; with 2^29 bytes or more the bit rate wraps around; a loss above 100 in 256 at every report is told as a least loss of 100.)
* **C67** How the DASH filter joins its streams: (Recorded: a stream that closes a second segment before another closes its first loses the first one; a file that cannot be opened leaves the others unlisted and mixes segments of different times afterwards; one audio stream without data makes the segments the others closed be lost.)
* **C68** The common origin of DASH times: (Recorded: if the first frame's time is zero the origin moves to a later frame; a frame from before the origin gets a time beyond two to the 63.)
* **C69** The frames a queue is filled with: (Recorded: full RGB32 or 4K pictures do not fit a queue announced for RGB24; a compressed audio codec with a planar sample format gets a queue of NULL frames, whose writer never returns, as for MP3 announced with planar samples; rates from 21474837 overflow; clearing an interleaved frame of two channels writes past its buffer.)
* **C70** What the video resampler delivers: (Recorded: nothing compares the picture's size to the frame's room, so that a picture overruns a frame exactly if it is larger, e.g. full RGB32 pictures in the filter's own queue; before a format is configured an uninitialised one is used; a context made for a picture that cannot be laid out would be used with another one; YUVJ420P cannot be asked for; asking for no format is answered with failure but stops the delivery.)
* **C71** What the video decoder delivers: (Recorded: the second frame of a refused codec is handed to the decoder of the codec before, or to none on a fresh filter; after a decoder could not be set up the next frame of that codec is handed to a missing, freed or unopened context, and a frame of another codec frees it twice; a decoder that takes no bytes and brings no picture keeps the filter looping for good; a picture is copied whatever its size and overruns the destination exactly if it is larger; formats without a name are delivered as no format; pictures after the first in a frame are dropped.)
* **C72** What the audio decoder delivers: (Recorded: a coded frame in which no frame is found is delivered all the same, with the samples the destination happened to hold; once the resampling context is initialised its parameters are never replaced, whatever is configured and whatever streams come, though the configuration is answered with success and the lengths become those of the new format, so that a stream turning from stereo to mono is read out of bounds; the second frame of a refused codec is decoded by the decoder of the stream before or by none; after a decoder could not be set up the next frame is handed to a missing, freed or unopened context; a decoder that takes no bytes and decodes nothing loops for good; a decoded format the code does not know meets no context; an output configured after the queue was made overruns it.)
* **C73** What the audio encoder accepts and delivers: (Recorded: a first configuration that fails bars every later one; encoders without frame size, as those of PCM and PCMU, can never be used; if the encoder's rate is below the input's, samples of earlier frames are encoded again, and if it is above, the encoder falls behind without bound; the resampling context is never given other parameters, so that another ring is misread; if its parameters cannot be set the next frame is converted without one; interleaved frames are handed over wrongly; a ring told more samples than a tenth of a second is overrun.)
* **C74** Requests are read one by one: (Recorded: the parser keeps what it has not used of a refused request: a good request that had one stray character before it is read together with the next request and comes first; after a request with a member whose name is no string the parser is out of step for good; a request ending behind a value is read without its last value; one typing error makes the following good requests fail and a later one be answered with what an earlier one asked.)
* **C76** Every control event is answered by what became of it: (Recorded: an event of the wrong shape, such as a number, parameters that are no object or a textual path id, ends the process wherever it stands in the request; all results have the same name, so a client that asks for it sees the first only; a path that cannot be connected is reported as failed but stays registered; a failed stop may have removed paths; success for a filter event means delivered, and an action that is no value ends the process later; fractions, bare signs and numbers too large are taken for other numbers; a connection whose text cannot be read is never closed; a request refused for one stray character is carried out when the next one arrives, whose sender gets its results while that sender's own events are not carried out.)
* **C77** The delay and loss told of a path: (Recorded: frames from the future give an enormous average; frames of negative time are not counted; averages above 35 minutes and sums of lost blocks above 2^31-1 are told as other numbers.)
* **C78** How the filters read their events: (Recorded: a parameter of the wrong type ends the process in many events and is passed over in others, which then report success; null is taken for zero, false and the text null; the mixer takes a width only with a height; without parameters removeSession, the configure of a capture device and gopReferenceTime follow a null pointer.)
* **C79** Calls of the filters' C++ interface arrive as made: (Recorded: a text with a backslash arrives changed; a reference time that does not begin with a number ends the process, one that is not a text is refused.)
* **C80** What the DASH manifest says and which files it leads to: (Recorded: a dollar sign in the base name makes the template unusable or leads elsewhere; a representation that joins late is described for older segments that it has no files of; a removed representation still counts in the maximum width and height; a call for a set of the other kind changes only templates; representations are in textual order; the depth is cut to 32 bits; before the first configuration no durations are announced.)
* **C81** What filters report of their settings is what they were told, and can be sent back: (Recorded: a video encoder without frame rate reports 25; numbers asked for as negative are reported; a decoder or audio encoder whose configuration failed reports it nevertheless; the audio bit rate and the mixer's frame time are not reported; gains come back only as printed; an unconfigured crop is refused when sent back; the splitter's whole entry resets the frame time, which has to be sent under its other name; number of segments and buffer time of the DASH filter are reported under names configure does not take; before its first configuration the DASH filter reports an uninitialised duration.)
* **C82** A transmitted stream is announced as what it is: (Recorded: describing an AAC stream over RTSP is undefined behaviour whatever frames have come, the line reading an array of two characters that is either uninitialised or overrun - with room for the text it carries the configuration of the last frame with a header; 16 bit sound, MP3 and transport streams are announced rightly but no receiver of this program takes them; the format of samples is not announced; A-law is announced as mu-law; pcmu and 16 bit pcm that have RFC numbers do not reach a receiver told of them by a request; the bandwidth announced for uncompressed sound is an eighth of what it needs.)
* **C83** A received stream is sent on unchanged: (Recorded: assumed is that the first fetch after connecting is over (C48), that the packetiser does not stop and, for H.264 and H.265, asks again only after the round - a packetiser that stops leaves one unit unsent and uncounted, one that asks again early is given the unit twice; what exceeds the frames of the queue is cut without the packetiser being told.)
* **C84** A video sent to an UltraGrid receiver: (Recorded: the access unit that brings the first parameter set is itself never sent, so that a receiver gets no parameter set and no picture it can start from before the stream repeats them; a stream without delimiters or without parameter sets is never sent; rates are whole numbers, rounded down, and those up to 5 are announced as divided by 1.001; the rate of a stream that does not say one is whatever memory held.)
* **C85** A recorded video stream plays back: (Recorded: when pictures are shown later than they are decoded, a player shows all pictures of a segment late by the distance between the two times of its first picture, because the time the first is shown is written as the time it is decoded; a stream without decode times, as every stream received from the network is, whose pictures follow each other within 0.499 of the segment duration is never written at all and runs over the buffers after 65536 pictures or 10 megabytes; if the initialisation file cannot be written, the picture it was to be written with is left out, and with a key picture all up to the next key picture are lost.)
* **C86** A recorded audio stream plays back: (Recorded: a gap inside a segment is closed up, so that what follows is heard early until the next segment; times start again after 2^32 ticks, a day and fifty minutes at 48 kHz; while the initialisation file cannot be written all sound is lost; the initialisation file is written again with every frame.)
* **C87** A player following the manifest plays the recording, at every moment: (Recorded: the file of a segment that starts at time 0 is never removed.)
* **C88** Frames flow along a path in order, are all accounted for, and none gets stuck: (Recorded: with two buffers a processed frame is also counted as lost.)
* **C90** The calls that connect filters make the network the frames flow through, and calls that disconnect cut it: (Recorded: a filter is not given a reader it holds already under another id; see C47. Calls that change connections while rounds are under way are outside.)
* **C91** Which schedules of connecting, disconnecting and rounds are safe: (Recorded: the code does not enforce any of these conditions, and each is needed: connect reports success with nothing connected, or reads a null pointer, or uses a deleted queue, when the reading filter has a round inside it; disconnecting a reader while the writing filter asks for a frame makes it use a null frame; disconnecting an end while its filter works on a frame lets the other filter's round delete that frame; replacing a reader during a round makes the end of the round use a null frame.)
* **C92** Frames flow in order while connections are made and cut: (Recorded: beginning to share a reader wakes nobody, so a frame waiting then is not taken by the newcomer, and stays in the queue, until another frame is committed; a filter that leaves a shared reader as the only one the announced frame waits for stops the frames for the others.)
* **C93** JSON trees are independent values: (Recorded: Object and Array have no assignment of their own, so assigning one to another of the same kind shares the children, which are then deleted twice; a name added twice is still there after one Remove.)
* **C94** Filters can be made and removed while frames flow: (Recorded: a periodic filter nobody is at work on is always queued, and removing it does not change that, so that deleting it then, as removing a filter or a path does, makes the next worker use a deleted filter; a filter removed while at work may be deleted before its worker has asked it for pending jobs.)
* **C95** A path is connected as a whole and nobody else notices: (Recorded: a path that fails on the way stays connected as far as it got; connecting a path from a filter directly to itself never returns, though creating it is allowed; deleting a path deletes its filters even if another path begins or ends at one of them, and that path is cut.)
* **C96** Created paths keep leading to their destination until they are removed: (Recorded: a path that could not be connected because its reader is taken stays in the registry; removing it then takes that reader away and cuts the path that was connected.)
* **C97** The streams of an opened file as the rest of the pipeline sees them: (Recorded: connecting a stream number that does not exist follows a null pointer, and connecting raw video reads a pixel format that was never set; as soon as another address is given, even one that cannot be opened, every description read through an earlier connection is freed memory; G.711 is always told as 8000 samples per second in one channel; linear unsigned sound is told as PCMU, the codec mu-law is received as.)
* **C98** What a capture device says it delivers: (Recorded: a device that once delivered H.264 and now delivers uncompressed pictures, which every second configuration of a capturing device asks for, is still announced and connected as H.264; YUV422 and motion JPEG can be captured but not connected; the name reported for YUV420 is not taken for it when given back, but for YUYV.)

## Definitions without lines

215 definitions of the model files whose comment gives no line numbers (found by searching the comment directly above each
definition, so a citation that lacks only the file name counts as one, and definitions of other files are not searched).

* AudioDec/Model: `Res`, `isPlanar`, `planes`, `planeBytes`, `readsOk`, `State.decoder`, `Op`, `Ret`
* AudioEnc/Model: `Op`, `Ret`
* AudioMixer/Model: `Cfg.WF`, `add32`
* AudioRing/Model: `Pushed`, `Out`
* Control/Model: `R`, `R.bind`, `R.ofOutcome`, `leadingDigits`, `ofDigits`, `dec`, `showInt`, `C`, `C.init`, `insertKey`, `byKey`, `Reply`, `Server.init`
* Dash/Model: `AOp`
* DashTop/Model: `Seg`, `Group.insert`, `Kind`, `Eff`, `Fr`, `Round`, `Queue`, `Queue.kind`, `Op`, `run`
* Demux/Model: `i64`
* Encoder/Model: `Res`, `coded`, `final`, `asked`, `s32`, `Pic`, `Enc.init`, `EncEv`
* Events/Model: `IsTop`, `Op`, `Run`
* FilterConn/Model: `St.init`, `upd`, `heldElsewhere`, `Op`
* FilterEvents/Model: `Val`, `Args`, `take`, `opt`, `optIf`, `is`, `isAll`, `Res`, `isBlank`, `Taken`, `pushEvent`
* FilterSync/Model: `Res`
* FrameAlloc/Model: `AV`, `imageSize`
* FrameQueue/Model: `Out`
* Isoff/Model: `Media.isVideo`, `zeros`, `Gen`, `store`
* Json/Model: `Str`, `Format.nl`, `cat`, `rootOf`
* JsonStream/Model: `Left`
* JsonTree/Model: `H`, `H.put`, `Tree`, `readN`, `M`, `M.init`, `Out`, `M.bindVar`, `M.find`, `kindOf`
* LinkRace/Model: `CPc`, `WPc`, `RPc`, `S`, `S.init`, `upd`, `S.touch`, `Op`, `Answer`
* Live/Model: `Eff`, `Inputs`, `Round`, `Took`, `number`, `Fs`, `Fs.empty`, `Fs.after`, `Fs.run`
* Manifest/Model: `El`, `before`, `change`, `Op`
* Mpd/Model: `setFiles`, `Op`, `Out`, `VOp`
* Nalu/Model: `Kind`
* Net/Model: `S.ring`, `S.inner`, `Op.by`
* NetStats/Model: `Play`, `PlayOp`, `playRun`, `toInt32`, `Sample`, `sub32`, `RecvStat.tell`, `Report`
* Offer/Model: `Sink`, `section_`, `Told`, `staticOf`, `told`, `received`, `cstr`, `toSink`
* Paths/Net: `Req`, `Apart`, `Polite`, `Runs`, `OnPath`, `NI`
* Pipeline/Model: `Op`
* Pool/Model: `set`, `Out`
* QueueLife/Model: `upd`
* Record/Model: `Out`, `media`
* RecordAudio/Model: `Out`
* Recv/Model: `Pkt`, `St`, `packet`, `Act`, `act`, `take`, `free`, `Op`
* Relay/Model: `St`, `Op`
* Reports/Model: `intArg`, `boolArg`, `textArg`, `fltArg`, `fromOutcome`, `events`
* Resampler/Model: `Op`, `Res`
* Retire/Model: `Out`
* Rewire/Model: `noLinks`, `Out`
* Sdp/Model: `Str`, `dec`
* SeqNum/Model: `DF`, `Op`
* Sessions/Model: `Sub`, `Found`, `upd`, `Op`, `step`, `run`
* SharedMem/Model: `Frame.byte`, `Offer`, `set`, `Sys`, `Act`, `run`
* SharedReader/Model: `Op`, `Out`
* Sink/Model: `upd`, `put`, `Build`, `Op`
* SlicedQueue/Model: `Out`, `SQ.onRing`
* Sources/Model: `Answer`, `Kind`, `Op`, `Out`, `Act`, `Act.op`, `Sources`, `single`, `Nal`, `Unit'`
* Sps/Model: `P`, `undefined`, `INT_MAX`
* UltraGrid/Model: `Packet`
* V4L/Model: `live`, `Op`, `step`
* VideoDec/Model: `State.decoder`
* VideoMixer/Model: `Lib`, `Res`, `Work`, `Piece`, `Cut`

## Parts of the code without a model

* The sockets of the `Controller` (its requests are modelled), `main` programs, tests and build files.
* What libav, x264/x265, live555, OpenCV, pugixml and the operating system do; their answers are inputs.
* `Event` payload memory (never freed by the code), log text, timing of condition variables.
* See the heads of the areas above for what is left out within a file.

## Axioms per theorem

Printed by `#print axioms` for the theorems of MANIFEST.json (without the prefix `Lms.`).

* **none**: FrameQueue.zero_capacity_is_undefined, QueueLife.Race.racing_disconnects_can_leak, FilterSync.late_and_early_frames_handed_on, FilterSync.early_frame_lost_with_late_one, SeqNum.failed_round_enqueues_stale_number, Mpd.maximum_never_shrinks, Names.sampleFmt_names_fit, Names.aCodec_names_fit, Names.vCodec_names_fit, Names.filterType_names_fit, Names.role_names_fit, Names.txFormat_names_fit, Names.bytes_of_sample, Rbsp.odd_zeros_are_not_recovered, Sps.progressive_420, AudioMixer.timeline_example, AudioMixer.stale_after_restart, AudioMixer.refused_though_place_free, AudioMixer.early_frame_restarts, VideoMixer.crop_results, Sources.full_buffer_overrun, Demux.nopts_smallest, Demux.unstamped_time, Demux.file_negative_overflows, Demux.missing_dts_overflows, Encoder.first_decode_time_zero, Encoder.reopening_leaks, Encoder.overflow_leaks, Encoder.force_next, Encoder.negative_accepted, V4L.reconfigure_wrong_rate, V4L.reconfigure_divides_by_zero, V4L.zero_rate_divides_by_zero, V4L.failed_stop_reports_success, V4L.failed_unmap_reports_success, V4L.failed_map_leaks, V4L.release_again_unmaps_twice, V4L.open_again, V4L.pause_counts, Recv.disconnect_dead, Sdp.example_sets, Sdp.one_long_record, Resampler.uninitialised_format, Resampler.stale_context, ReaderDelay.told_cut, Manifest.depth_is_cut, Offer.bandwidth_an_eighth, UltraGrid.untold_rate

* **propext**: FrameQueue.forced_producer_breaks_consumer, AudioRing.count_of_empty_frames_is_ub, AudioRing.Conc.overlapping_updates_corrupt_the_count, Events.due_events_are_taken, Events.due_event_held_back, SeqNum.one_to_many_copies_number, Mpd.frame_rate_of_last_update, Dash.audio_partition, Dash.audio_reaches_target, Nalu.short_unit_is_ub, Nalu.avc_record_profile_is_nal_header, Nalu.short_sps_is_ub, Nalu.trailing_sei_loses_intra, Nalu.same_time_pictures_merge, Nalu.reordered_pictures_merge, Nalu.stale_parameter_set, BitStream.skip_is_read, Json.ofString_plain, VideoMixer.piece_length_is_pixels, VideoMixer.crop_sum_overflows, SharedMem.codec_codes, SharedMem.run_feeds, SharedMem.raw_oversize, SharedMem.header_is_next_picture, SharedMem.parse_other, UltraGrid.swap_samples, UltraGrid.audio_fragment_aborts, Sources.asked_again_answered_twice, Sources.short_frame_wraps, Sources.offer_entries, Demux.opened_idle, Demux.framing_iff, Demux.short_last_merged, Demux.avcc_without_filter, Demux.announced_iff, Encoder.unset_reference_differs, Encoder.failed_request_lost, Encoder.open_failure_sticks, Encoder.open_failure_reached, V4L.capture_only, V4L.capture_from_unmapped, V4L.tiny_copied, V4L.large_picture_reached, V4L.planar_loses_chroma, V4L.release_idle, FilterConn.self_connect_hangs, FilterConn.generated_unused, NetStats.keep_alive_after_end, NetStats.long_timeouts, NetStats.pause_then_silence, NetStats.send_example, NetStats.shadow_example, NetStats.rate_wraps, NetStats.loss_capped, DashTop.late_stream_loses_segments, DashTop.failed_write_mixes_sets, DashTop.silent_audio_stream_loses_others, DashTop.origin_moves_from_zero, FrameAlloc.pixOf_libav, FrameAlloc.video_refused_iff, FrameAlloc.video_raw_room_exact, FrameAlloc.rgb24_does_not_hold, FrameAlloc.audio_refused_iff, FrameAlloc.defaults_framed, FrameAlloc.codec_defaults, Resampler.yuvj420p_refused, VideoDec.unknown_format_delivered, AudioDec.late_configuration_accepted, AudioDec.silent_frame_delivered, AudioDec.channels_change_unnoticed, AudioDec.configured_after_queue_overruns, AudioDec.length_told, AudioDec.failed_conversion_refuses, AudioEnc.reader_accepted_iff, AudioEnc.first_conversion_stays, AudioEnc.interleaved_input_misused, AudioEnc.half_of_the_samples, AudioEnc.other_ring_misread, AudioEnc.failed_configuration_bars, ReaderDelay.average_example, ReaderDelay.future_frames_enormous, Offer.transport_types, UltraGrid.first_picture_lost, UltraGrid.rate_from_memory, LinkRace.success_without_connection, LinkRace.sync_round_in_connect, LinkRace.round_before_flag, LinkRace.round_between_looks, LinkRace.cut_while_asking, LinkRace.asking_while_cut, LinkRace.writer_cut_while_writing, LinkRace.reader_cut_while_reading, LinkRace.reader_replaced_in_round, V4L.reported_asks_again_iff

* **Quot.sound, propext**: FrameQueue.forced_slot_hangs_with_capacity_one, FrameQueue.capacity_one_holds_nothing, FrameQueue.forced_write_aliases_reader_with_two_buffers, SlicedQueue.seventeenth_slice_refused, SlicedQueue.abandoned_picture_blocks_encoder, AudioRing.refused_push_changes_nothing, AudioRing.Conc.count_in_every_schedule, AudioRing.Conc.bytes_right_without_overlap, AudioRing.Conc.paired_loses_nothing, SharedReader.release_without_frame_is_ub, SharedReader.release_answer, QueueLife.second_disconnect_refused, QueueLife.connecting_to_busy_reader_leaks, Pool.pick_serves_in_order, Pool.pick_removes_front, Pool.notification_can_be_lost, Pool.removal_with_pending_job_is_ub, Pool.removal_races_with_completion, Pool.reused_id_runs_the_removed_task, Pipeline.removing_path_breaks_sharing_path, Pipeline.connecting_dangling_path_is_ub, Pipeline.second_stop_refused, Pipeline.stop_with_two_paths_fails, Pipeline.stop_with_two_paths_is_ub, Pipeline.deleting_twice_is_undefined, FilterSync.round_frames, FilterSync.sync_with_null_reader_is_ub, FilterSync.paced_takes_all, SeqNum.many_to_one_numbers_consecutive, Mpd.timeline_refines, Mpd.window_bounded, Mpd.fixed_bound_shows_last, Mpd.one_dropped_one_reported, Mpd.lowered_bound_leaves_files, Mpd.segment_at_zero_is_never_removed, Mpd.repeated_start_time_removes_listed_file, Mpd.changed_folder_orphans_files, Mpd.removed_representation_leaves_files, Mpd.failed_write_leaves_files, Mpd.buffer_time_within_window, Mpd.maximum_is_largest, Dash.closing_rule, Dash.durations_add_up, Dash.group_duration_is_distance, Dash.video_frame_refused_iff, Dash.audio_frame_refused_iff, Nalu.appended_units_read_back, Nalu.huge_unit_passes_the_check, Nalu.avc_record_reads_back, Nalu.avc_record_profile_wrong, Nalu.hevc_record_reads_back, Nalu.kinds_follow_standards, Nalu.leading_pictures_are_lost, Adts.config_of_header, Adts.surround_is_misannounced, Adts.sample_without_header, Adts.init_segment_every_frame, Adts.config_string_overflows, Adts.hex_text_reads_back, BitStream.fields_are_written, BitStream.zeros_after_the_end, BitStream.large_codes_cannot_be_written, BitStream.largest_code_is_lost, BitStream.byte_copies_ignore_the_bit_position, BitStream.peek_is_read, BitStream.se_out_of_range, BitStream.skipping_moves, Rbsp.never_overflows, Rbsp.refused_iff_forbidden, Sps.other_high_profiles_misread, Sps.scaling_lists_misread, Sps.interlaced_height_wrong, Sps.buffers_beyond_arrays, Json.unescape_escape, Json.escape_clean, AudioMixer.line_moves, AudioMixer.counter_end_restarts, AudioMixer.unknown_refused, AudioMixer.refused_changes_nothing, AudioMixer.volume_sets, AudioMixer.mute_sets, AudioMixer.solo_sets, VideoMixer.mem_order, VideoMixer.sorted_order, VideoMixer.top_layer_never_painted, VideoMixer.channel_comes_and_goes, VideoMixer.crop_reachable, VideoMixer.crop_added_once, SharedMem.pictures_offered, SharedMem.raw_offered, SharedMem.no_delimiter_no_offer, SharedMem.other_unit_lost, UltraGrid.reassembles, UltraGrid.no_progress, UltraGrid.large_frame_overflows, Sources.sampler_regroups, Sources.lengths_read_back, Sources.large_unit_lost, Sources.exact_fill_overruns, Sources.scan_units, Sources.announced_whole_iff, Sources.exact_allocation_overread, Sources.trailing_zero_kept, Sources.code_completed_behind, Sources.offer_free, Sources.injected_mark, Demux.pieces_separate, Demux.nothing_leaks, Demux.ub_causes, Demux.end_of_stream_merged, Demux.leading_zeros_spurious, Demux.inside_cut, Demux.open_answer, Demux.unstamped_backwards, Demux.file_times, Encoder.times_kept, Encoder.entries_released, Encoder.demo_played, Encoder.intra_on_grid, Encoder.same_pictures, Encoder.late_joiner, Encoder.no_gop_time, Encoder.old_reference_floods, Encoder.config_event, Encoder.any_event_sets_frame_time, Encoder.encoder_fits, Encoder.encoder_opens, V4L.picture_copied, V4L.large_picture_overruns, V4L.delay_bounded, V4L.schedule_kept, FilterConn.writers_never_exceed, FilterConn.writers_own_queues, FilterConn.queues_have_ends, FilterConn.history_safe, FilterConn.refused_reader_leaves_null, FilterConn.readers_never_exceed, FilterConn.share_exceeds_maximum, FilterConn.connect_succeeds_iff, FilterConn.connect_refused, FilterConn.reconnect_before_round_loses_queue, FilterConn.roundW_removes, FilterConn.roundR_removes, FilterConn.disconnectW_removes, FilterConn.disconnectR_removes, FilterConn.shared_twice_stays, FilterConn.connect_disconnect, FilterConn.share_result, FilterConn.generated_found, FilterConn.unknown_reader, Sink.add_reader, Sink.name_reused, Sink.refused_unregisters, Sink.video_left_out, Sink.source_kept, Sink.minus_one, Sink.refused_reader, Recv.round_receives, Recv.connect_steady, Recv.first_frame_misplaced, Recv.first_frame_garbage, Recv.first_frame_too_long, Recv.reconnect_silent, Recv.freed_under_fetch, Sdp.extradata_of_records, Sdp.units_prefixed, Sdp.too_long_records, Sdp.short_buffer, Sdp.connected_early, Sessions.polite_example, Sessions.used_id_refused, Sessions.add_registers, Sessions.add_answer_iff, Sessions.remove_connected, Sessions.remove_undescribed, Sessions.remove_failed, Sessions.ended_stream, Sessions.ended_remove, Sessions.connect_waiting, Sessions.unreadable_text, Sessions.refused_keeps_id, Sessions.stale_description, Sessions.foreign_sink, NetStats.keep_alives_go_on, NetStats.keepDelay_in_time, NetStats.keepDelay_exact, NetStats.stats_do_not_drift, NetStats.statDelay_exact, NetStats.sub32_exact, NetStats.extremes_told, NetStats.present_told, NetStats.rate_exact, NetStats.first_members, DashTop.time_since_origin, DashTop.time_order, DashTop.before_origin_wraps, FrameAlloc.video_coded_frames, FrameAlloc.video_raw_frames, FrameAlloc.rgb24_holds, FrameAlloc.audio_null_slots, FrameAlloc.audio_rate_overflow, FrameAlloc.force_returns, FrameAlloc.force_never_returns, FrameAlloc.mp3_planar_blocks, FrameAlloc.planar_clear, FrameAlloc.interleaved_clear, FrameAlloc.twenty_milliseconds, Resampler.conversion, Resampler.rate_back, Resampler.overrun, Resampler.overrun_rgb32, Resampler.no_format_takes_effect, VideoDec.refused_then_taken, VideoDec.failed_setup_then_used, VideoDec.no_progress_loops, VideoDec.picture_overruns, AudioDec.reached_unique, AudioDec.first_conversion_stays, AudioDec.refused_then_taken, AudioDec.failed_setup_then_used, AudioDec.no_progress_loops, AudioDec.unknown_format_crashes, AudioEnc.configured_for_good, AudioEnc.frames_right, AudioEnc.faster_output_falls_behind, AudioEnc.failed_resampler_then_used, AudioEnc.failed_conversion_refuses, Control.readInt_showInt, ReaderDelay.average_of_last_window, ReaderDelay.negative_times_not_counted, FilterEvents.stoull_digits, FilterEvents.stoull_minus, Manifest.removed_still_counts, Manifest.other_kind, Manifest.textual_order, Reports.vmix_ok_new, Reports.vmix_ok_remove, Offer.transport_accepts, Offer.bandwidth_of_bytes, Relay.unit_sent, Relay.frame_sent, Relay.arriving_parsed, Relay.arriving_fits, Relay.receive_ok, Relay.stopped_unsent, Relay.asked_twice, Relay.cut_untold, UltraGrid.waits_sent, UltraGrid.empty_not_sent, UltraGrid.group_received, UltraGrid.no_delimiter_no_video, UltraGrid.no_size_no_video, UltraGrid.oversized_unknown, Record.tick_is_time, Flow.two_buffers_miscount, Wired.network_exists, LinkRace.rounds_get_frames, Rewire.newcomer_not_woken, Rewire.leaving_last_stalls, Retire.source_deleted_while_queued, Retire.filter_deleted_too_soon, Paths.path_calls_are_safe, Paths.no_reader_given_twice, Paths.connected_path_leads, Paths.connecting_changes_only_the_path, Paths.deleted_path_is_gone, Paths.refused_deletion_cuts_the_end, Paths.path_comes_and_goes, Paths.deleted_filter_is_cut_from_others, Paths.failed_path_stays_half_connected, Paths.path_to_itself_hangs, Paths.deleting_cuts_another_path, Paths.rounds_change_nothing, Paths.requests_are_safe, Paths.connected_paths_stay, Paths.no_stray_connections, Paths.nothing_joined_without_paths, Paths.removing_failed_path_cuts_another, V4L.described_right_iff, V4L.connects_iff, V4L.stale_codec

* **Classical.choice, Quot.sound, propext**: FrameQueue.queue_refines_bounded_fifo, FrameQueue.fifo_without_loss_or_duplication, FrameQueue.refused_write_changes_nothing, FrameQueue.old_frame_is_last_released, FrameQueue.nearly_full_report, FrameQueue.forced_write_drops_only_newest, FrameQueue.forced_slot_terminates, FrameQueue.lock_free_producer_consumer, FrameQueue.written_slot_never_read_slot, SlicedQueue.sliced_queue_refines, SlicedQueue.picture_delivered_as_slices, SlicedQueue.overflow_counts_every_dropped_slice, SlicedQueue.oversized_slice_is_undefined, AudioRing.audio_ring_refines_streams, AudioRing.bytes_delivered_in_order, AudioRing.output_time_is_sync_plus_duration, AudioRing.push_decision, AudioRing.gap_over_100ms_reads_out_of_bounds, AudioRing.repeated_frame_gets_next_time, AudioRing.on_time_frame_resets_after_a_day, SharedReader.shared_reader_refines, SharedReader.every_filter_sees_every_frame_once, SharedReader.leave_can_stall_reader, QueueLife.queue_life_refines, QueueLife.deleted_exactly_once, QueueLife.Race.racing_disconnects_are_safe, Pool.one_worker_per_filter, Pool.waiting_filter_is_picked_in_turn, Pool.pending_filter_stays_scheduled, Pool.removed_filter_never_runs, Pool.removed_filter_never_touched, Pipeline.registries_stay_wellformed, Pipeline.graph_stays_consistent, Pipeline.remove_path_keeps_consistency_iff, Pipeline.accepted_requests, Pipeline.refused_request_changes_nothing, Pipeline.stop_releases_everything, Pipeline.refused_stop_ends_workers, Events.each_event_runs_exactly_once, Events.events_never_run_early, Events.can_iff, Events.poll_runs_in_time_order, Events.poll_terminates, FilterSync.round_decision, FilterSync.round_clock, FilterSync.output_stamps_increase, FilterSync.output_stamps_on_grid, FilterSync.demand_decision, FilterSync.sync_takes_lagging_inputs, FilterSync.newest_input_held_back, FilterSync.unpaced_round, FilterSync.synchronised_round, SeqNum.head_numbers_consecutive, SeqNum.consumer_sees_increasing_numbers, Mpd.files_match_timeline, Mpd.manifest_describes_representations, Mpd.maximum_covers_representations, Dash.video_segments, Dash.segments_follow_rule, Dash.segments_abut, Dash.groups_start_intra, Dash.groups_partition, Dash.groups_numbered, Dash.groups_meet_rule, Dash.next_group_starts_with_closing_frame, Dash.video_no_overflow, Dash.segment_one_frame_short, Dash.long_frame_does_not_close, Dash.reordered_frames_do_not_abut, Dash.audio_segments, Dash.audio_start_truncated, Isoff.init_segment_is_box_tree, Isoff.init_segment_values, Isoff.audio_decoder_info, Isoff.segment_is_box_tree, Isoff.segment_written_iff, Isoff.collected_data_can_overflow_output, Isoff.long_audio_config_is_unreadable, Isoff.init_segment_fields, Isoff.segment_fields, Isoff.read_stream_desc, Isoff.init_stream_desc, Isoff.next_track_is_in_use, Isoff.init_needs_record, Isoff.segment_plays_back, Nalu.start_code_removed, Nalu.pictures_are_assembled, Nalu.other_units_ignored, Names.pixel_names_do_not_fit, Names.libav_audio_names, Names.libav_video_names, BitStream.read_inverts_write, BitStream.fields_are_read, BitStream.long_codes_overflow, Rbsp.payload_recovered, Rbsp.legal_payload_recovered, Sps.sps_recovered, Sps.reported, Sps.dimensions_right, Sps.dimensions_wrong, Sps.rate_is_truncated, Sps.offset_array_overflows, Json.parse_write, Json.determineType_write, Json.write_injective, Json.backslash_end_lost, Json.quote_in_key_lost, Json.exponent_refused, Json.unclosed_accepted, Json.two_documents_merged, Json.construction_unescapes, Json.comments_ignored, Json.quote_in_comment_lost, Json.blanks_ignored, AudioMixer.mixer_plays_timeline, AudioMixer.push_refines, AudioMixer.extract_refines, AudioMixer.silent_where_nothing, AudioMixer.heard_is_sum, AudioMixer.heard_order, AudioMixer.order_matters, AudioMixer.gains_in_range, AudioMixer.mute_forgets, AudioMixer.solo_forgets, AudioMixer.master_unlimited, AudioMixer.compress_range, AudioMixer.compress_open, AudioMixer.compress_id, AudioMixer.compress_odd, AudioMixer.compress_mono, AudioMixer.heard_in_range, AudioMixer.conversion_fits, AudioMixer.bytes_roundtrip, AudioMixer.master_above_one_overflows, AudioMixer.full_scale_overflows, VideoMixer.mixed_picture, VideoMixer.topmost_seen, VideoMixer.refused_only, VideoMixer.config_accepted_iff, VideoMixer.commands_ok, VideoMixer.top_layer_accepted, VideoMixer.mixed_time, VideoMixer.paste_succeeds_iff, VideoMixer.painted_inside, VideoMixer.never_aborts, VideoMixer.splitter_cuts, VideoMixer.corner_outside_aborts, VideoMixer.tiny_size_aborts, VideoMixer.pixel_fitted, SharedMem.peer_reads_offers, SharedMem.no_write_while_read, UltraGrid.frame_sent, UltraGrid.frame_received, UltraGrid.au_header, UltraGrid.au_size_right_iff, UltraGrid.audio_sent, Sources.extradata264, Sources.extradata265, Sources.once_in_order, Sources.answer_is_current, Sources.released_iff, Sources.answered_at_once, Sources.never_fails, Sources.answer_right, Sources.frames_given_back, Sources.round_ends, Sources.quiet_packetiser_blocks, Sources.injected, Demux.demux_all, Demux.demux_prefix, Demux.find_spec, Demux.no_code_overread, Demux.large_unit_overruns, Demux.times_in_order, Demux.time_exact, Encoder.skipped_entry_stays, Encoder.intra_on_own_grid, V4L.device_consistent, V4L.release_closes, V4L.configure_closed, V4L.reconfigure_ignores_rate, V4L.duration_between, V4L.duration_follows, Sink.never_ub, Sink.connections_consistent, Sink.server_consistent, Sink.refused_connection, Sink.accepted_connection, Sink.std_accepted, Sink.ultragrid_accepted, Sink.mpegts_accepted, Sink.rtsp_accepted, Sink.rtsp_ts_accepted, Sink.remove_connection, Sink.delete_reader, Recv.received_in_order, Recv.never_ub, Recv.never_resumes, Sdp.description_reads_back, Sdp.refused_iff, Sdp.example_reads_back, Sdp.unchecked_medium, Sdp.negative_port, Sdp.rename_keeps_lines, Sdp.rename_example, Sdp.lf_lines_run_together, Sdp.lf_loses_media, Sdp.received_sets_announced, Sessions.polite_from_start, Sessions.polite_history, Sessions.consistent, Sessions.remove_defined_iff, Sessions.remove_effect, Sessions.round_defined_iff, Sessions.disconnect_defined_iff, Sessions.connect_first_time, Sessions.remove_text_session, Sessions.closed_not_removable, Sessions.failed_session_stays, NetStats.keep_alives_in_time, NetStats.stream_ends_after_duration, NetStats.no_duration_no_end, NetStats.play_example, NetStats.end_example, NetStats.long_stream_undefined, NetStats.not_asked_no_keep_alives, NetStats.rates_told, NetStats.no_rate_told, NetStats.average_rate, NetStats.losses_told, NetStats.average_loss, NetStats.jitter_told, NetStats.secsBetween_exact, NetStats.aStream_runs, NetStats.aStream_rates, NetStats.aStream_losses, NetStats.negative_loss, NetStats.average_above_greatest, NetStats.clock_set_back, NetStats.rateNow_eq, NetStats.rates_not_negative, NetStats.last_members, DashTop.files_are_segments_in_order, DashTop.in_step_nothing_lost, DashTop.audio_closed_with_video, DashTop.video_listed_iff, DashTop.as_many_audio_as_video, DashTop.reference_when_apart, DashTop.readers_consistent, DashTop.readers_change, DashTop.one_origin, DashTop.origin_is_first_frame, FrameAlloc.audio_frames, VideoDec.decoding, AudioDec.decoding, AudioEnc.configure_accepted_iff, AudioEnc.history_codec, AudioEnc.encoding, AudioEnc.same_rate_whole_frames, AudioEnc.slower_output_repeats_samples, AudioEnc.no_frame_size_unusable, AudioEnc.ring_overrun, JsonStream.reading_is_defined, JsonStream.parse_defined, JsonStream.understood_alone, JsonStream.refused_request_is_read_later, JsonStream.out_of_step_for_good, JsonStream.last_value_not_seen, JsonStream.typing_error_delays_requests, JsonStream.cut_request_all_or_nothing, JsonStream.cut_request_examples, Control.cut_request_carried_out_or_not, Control.event_answered, Control.dies_iff_fatal, Control.failure_changes_nothing, Control.success_is_carried_out, Control.results_in_order, Control.one_verdict_each, Control.only_first_verdict_seen, Control.fatal_event_ends_all, Control.fatal_events, Control.delivered_is_not_executed, Control.event_keeps_order, Control.request_defined, Control.ordinary_events, Control.readInt_fits, Control.numbers_taken_for_others, Control.report_tells_registries, Control.answered_once_or_left_open, Control.connection_by_itself, Control.next_client_gets_others_results, Control.session_example, Control.second_verdict_hidden, Control.unconnected_path_stays, Control.stray_example, ReaderDelay.average_between, ReaderDelay.frame_time_and_delay, ReaderDelay.path_report_delay_and_loss, FilterEvents.event_read, FilterEvents.event_by_table, FilterEvents.unknown_action, FilterEvents.action_no_text, FilterEvents.no_params_needed, FilterEvents.only_named_members, FilterEvents.well_typed, FilterEvents.delay_ignored, FilterEvents.addSession_read, FilterEvents.wrong_type_ends, FilterEvents.wrong_type_ignored, FilterEvents.null_taken, FilterEvents.no_params_undefined, FilterEvents.call_arrives, FilterEvents.backslash_changed, FilterEvents.reference_text, FilterEvents.reference_round_trip, FilterEvents.dash_reference, FilterEvents.reference_wrong, Manifest.manifest_says_what_is_known, Manifest.read_document, Manifest.listed_is_written, Manifest.closed_is_described, Manifest.failed_not_listed, Manifest.media_address, Manifest.init_address, Manifest.names_differ, Manifest.dollar_in_base, Manifest.late_joiner, Manifest.history_outcome, Manifest.unconfigured, Reports.encoder_told, Reports.encoder_refused_unchanged, Reports.encoder_restored, Reports.encoder_reference_restored, Reports.Enc.ok_events, Reports.untimed_reported_as_25, Reports.negative_reported, Reports.decoder_told, Reports.decoder_restored, Reports.decoder_failure_reported, Reports.audio_encoder_told, Reports.audio_encoder_restored, Reports.bitrate_not_reported, Reports.refused_encoder_reported, Reports.gain_told, Reports.gains_restored, Reports.gain_rounded, Reports.tenths_ok, Reports.channel_told, Reports.channels_restored, Reports.split_ok_event, Reports.vmix_ok_event, Reports.vmix_ok_add, Reports.mixer_time_not_reported, Reports.crop_told, Reports.crops_restored, Reports.unconfigured_crop_refused, Reports.splitter_entry_resets_time, Reports.dash_told, Reports.dash_partly_told, Reports.dash_restored, Reports.dash_ok_events, Reports.segments_not_restored, Reports.new_dash_reports_anything, Reports.mute_told, Reports.solo_told, Reports.mute_master_told, Reports.unknown_changes_nothing, Reports.new_encoder_report, Offer.rtsp_as_plain, Offer.understood_is_sent, Offer.understood_iff, Offer.understood_is_sent_plain, Offer.understood_iff_plain, Offer.transport_not_understood, Offer.number_of_stream, Offer.numbers_are_rfc, Offer.clock_announced, Offer.accepted_iff, Offer.plain_loop, Offer.plain_only, Offer.fmtp_fits, Offer.fmtp_reads, Offer.aac_description_undefined, Offer.aac_description_repaired, Offer.bandwidth_told, Offer.alaw_announced_as_mulaw, Offer.sample_format_lost, Offer.plain_numbers_differ, Offer.renamed_iff, Offer.transport_clock, Offer.video_names, Relay.sent_on, Relay.relayed, Relay.transmit_ok, Relay.transmit_agrees, Relay.serve_one, UltraGrid.stream_sent, UltraGrid.unit_sent, UltraGrid.size_in_force, Record.recording_plays_back, Record.shown_at_its_time, Record.received_stream_not_written, Record.init_files_describe, Record.shown_late, Record.unwritable_init_loses_pictures, Record.ticks_defined, Record.recording_succeeds, Record.init_comes_first, Record.segments_without_init, Record.unwritable_only_matters_for_init, RecordAudio.recording_plays_back, RecordAudio.recording_follows_video, RecordAudio.heard_at_its_time, RecordAudio.init_describes, RecordAudio.unwritable_loses_all, RecordAudio.gap_closed_up, RecordAudio.times_start_again, RecordAudio.recording_with_video_succeeds, RecordAudio.recording_alone_succeeds, RecordAudio.ticks_defined, Live.recording_can_be_followed, Live.recording_goes_through, Live.done_both, Live.done_sound, Flow.frames_flow_in_order, Flow.frames_arrive_in_order, Flow.no_frame_left_behind, Flow.source_stays_scheduled, Flow.path_at_rest_is_empty, Flow.silent_path_drains, Flow.run_processes_one_frame, Net.frames_flow_in_order, Net.no_frame_left_behind, Net.periodic_stays_scheduled, Net.network_at_rest_is_empty, Net.frame_found_is_handled, Net.sharers_get_the_same_frames, Net.only_the_ends_take_part, Wired.connections_make_a_network, Wired.connect_lets_frames_flow, Wired.share_lets_both_have_the_frames, Wired.disconnected_reader_gets_nothing, Wired.disconnected_writer_gives_nothing, LinkRace.careful_schedules_are_safe, LinkRace.careful_answers_are_true, LinkRace.connection_lasts, LinkRace.queues_are_deleted_in_time, LinkRace.next_round_cleans_up, Rewire.frames_flow_while_connections_change, Rewire.no_frame_left_behind, Rewire.periodic_stays_scheduled, Rewire.frames_go_along_connections, Rewire.connections_fit, Rewire.changed_network_at_rest_is_empty, Rewire.calls_are_changes, Rewire.called_network_is_reached, JsonTree.trees_are_values, JsonTree.copy_is_independent, JsonTree.added_is_found, JsonTree.each_node_has_one_owner, JsonTree.nothing_leaks, JsonTree.references_stay, JsonTree.removed_name_may_remain, JsonTree.assigned_node_deleted_twice, Retire.frames_flow_while_filters_go, Retire.no_frame_left_behind, Retire.periodic_stays_scheduled, Retire.network_at_rest_is_empty, Retire.deleted_filter_is_nowhere, Retire.removed_stays_out, Retire.removed_source_is_still_queued, Paths.free_path_is_connected, Paths.removal_removes, Demux.Streams.reports_current, Demux.Streams.connect_iff, Demux.Streams.description_until_uri, Demux.Streams.sound_described, Demux.Streams.others_refused, V4L.asked_format

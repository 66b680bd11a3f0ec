{"id": "C01", "title": "Frame queue delivers frames first-in first-out, without loss or duplication", "statement": "A frame queue created for N frames (1 < N) holds at most N-1 frames. Whatever sequence of slot requests, commits, reads and releases is issued without forcing, the frames handed to the reader are exactly the committed frames in commit order, each once; a write refused because the queue is full changes nothing, a read on an empty queue returns nothing and changes nothing, and the reported element count is the number of committed, unreleased frames.", "quantifier": "every capacity N >= 2 and every finite sequence of queue operations", "why_tests_cant": "The claim ranges over every capacity and every operation history (all wrap-around positions of both indices); a test walks a few histories.", "anchors": ["src/AVFramedQueue.cpp: AVFramedQueue::getRear, getFront, addFrame, removeFrame, getElements", "src/FrameQueue.hh: FrameQueue"]}
{"id": "C02", "title": "Forced writes always get a slot, drop only the most recent frame and are counted", "statement": "When a writer forces a slot on a full frame queue it always obtains one, exactly one frame is discarded, the discarded frame is the most recently committed one, the loss counter rises by exactly one per discarded frame, and all other frames are still delivered in order. (For capacity 1 the call does not return: recorded as a counterexample.)", "quantifier": "every capacity N >= 2, every sequence of forced and unforced operations, every queue content", "why_tests_cant": "Needs all histories with overflow at every wrap-around position, and non-termination at capacity 1 cannot be observed by a finite test.", "anchors": ["src/AVFramedQueue.cpp: AVFramedQueue::forceGetRear, doFlush", "src/FrameQueue.hh: FrameQueue::flush, getLostBlocs"]}
{"id": "C03", "title": "A producer and a consumer thread may use one frame queue without locks", "statement": "For one producer and one consumer acting on the same queue with individual index loads and stores interleaved in any order (sequentially consistent), unforced use delivers exactly the committed frames in order and never reports a frame that was not committed. Forced use does not enjoy this: there is an interleaving in which already released frames are delivered again (recorded as a counterexample).", "quantifier": "every capacity, every interleaving of the atomic steps of both threads", "why_tests_cant": "Interleavings are unbounded and schedule dependent; a stress test sees only the schedules the machine happens to produce.", "anchors": ["src/AVFramedQueue.cpp: AVFramedQueue::getRear, addFrame, getFront, removeFrame, forceGetRear, doFlush"]}
{"id": "C04", "title": "The slot being written is never the slot being read", "statement": "The buffer given to the writer is never the buffer currently held by the reader, for any unforced history, and also for forced histories when the queue was created for at least three frames. (With two frames a forced write hands the reader's buffer to the writer: recorded as a counterexample.)", "quantifier": "every capacity and every operation history", "why_tests_cant": "Aliasing depends on the exact index relation in every reachable state.", "anchors": ["src/AVFramedQueue.cpp: AVFramedQueue::getRear, forceGetRear, getFront, forceGetFront"]}
{"id": "C05", "title": "Sliced video queue splits a coded picture into its slices, in order, with common metadata", "statement": "When a picture made of k slices is committed to a sliced video queue, the reader subsequently receives the slices one per frame in the order they were set, byte for byte, each carrying the presentation time, decode time, origin time, sequence number and size of the picture; at most 16 slices are accepted per picture and the 17th is refused; when the queue overflows the loss counter records each dropped slice.", "quantifier": "every picture (any number and content of slices within the slice-size limit), every queue state and capacity, every history", "why_tests_cant": "Covers every slice count, fill level and wrap position; tests fix a few pictures.", "anchors": ["src/SlicedVideoFrameQueue.cpp: pushBackSliceGroup, addFrame, getRear, forceGetRear", "src/VideoFrame.cpp: SlicedVideoFrame::setSlice, Slice"]}
{"id": "C06", "title": "Audio ring buffer returns exactly the bytes written, per channel and in order", "statement": "For every channel, the concatenation of the sample bytes returned by successive output frames is a prefix of the concatenation of the sample bytes accepted so far (including inserted silence), whatever the sizes of the pushed and popped frames and wherever the buffer wraps; an input that does not fit is refused as a whole and leaves the buffer unchanged; all channels stay the same length. (An input behind a gap whose silence fits but whose samples do not is refused after the silence was stored: recorded.)", "quantifier": "every buffer size, every sequence of pushes and pops of arbitrary sizes, every number of channels", "why_tests_cant": "Byte-exactness at all wrap positions and all chunk-size sequences.", "anchors": ["src/AudioCircularBuffer.cpp: pushBack, popFront, fillOutputBuffers, forceGetRear, getFront, addFrame, removeFrame"]}
{"id": "C07", "title": "Audio ring buffer output is correctly time-stamped, with gaps filled by silence and late frames dropped", "statement": "Every output frame's time stamp is the buffer's synchronisation time plus the duration of all samples output since synchronisation. An input whose time stamp deviates from the expected position by at most the tolerance is appended as is; one that is late by more than the tolerance is dropped and nothing changes; one that is early by more than the tolerance is preceded by exactly the missing number of silent samples; a gap of the whole buffer or more resets the buffer. (Recorded exceptions: a gap longer than 100 ms that is not a reset reads beyond the silence buffer; a frame handed out again after a failed request carries the next frame's time; after 2^32 samples the clock wraps.)", "quantifier": "every sample rate, time-stamp sequence and frame-size sequence", "why_tests_cant": "Ranges over all time-stamp sequences; rounding and boundary behaviour at the tolerance are value dependent.", "anchors": ["src/AudioCircularBuffer.cpp: addFrame, getFront, doFlush"]}
{"id": "C08", "title": "Filters sharing one reader each see every frame exactly once", "statement": "When several filters share a reader, each of them is told 'new frame' exactly once per frame, they all see the same frame, and the queue advances to the next frame exactly when every sharing filter has released the current one; no filter's activity can make another miss a frame. (If a filter disconnects while it is the only one that has not yet released the current frame, the others never get a new frame again: recorded as a counterexample.)", "quantifier": "every set of sharing filters, every interleaving of get/release calls, every frame history", "why_tests_cant": "All interleavings of an arbitrary number of filters.", "anchors": ["src/IOInterface.cpp: Reader::getFrame, removeFrame, addReader, disconnect"]}
{"id": "C09", "title": "A queue is destroyed exactly once, after both ends have let go", "statement": "A queue between a writer and a (possibly shared) reader is deleted exactly once, by whichever end disconnects last, in any order of disconnections; no end ever refers to a deleted queue; a second disconnect of the same end is refused. When the two ends disconnect in parallel the queue is still never deleted twice nor used after deletion. (Two recorded exceptions, each a leak: both ends testing the connected flag before either clears it; a writer connected directly to a reader that is already connected.)", "quantifier": "every order and repetition of writer and reader disconnections, any number of sharing filters", "why_tests_cant": "Double free and use after free depend on the order of disconnects by two ends; tests pick an order.", "anchors": ["src/IOInterface.cpp: Reader::disconnect, disconnectQueue, Writer::disconnect", "src/FrameQueue.hh: FrameQueue::setConnected, isConnected"]}
{"id": "C10", "title": "No filter is ever run by two workers at once, and the pool serves tasks in order", "statement": "In every execution of the worker pool, a filter is being processed by at most one worker thread at any time, each scheduled id is queued at most once, and a filter whose time has not come is not run.", "quantifier": "every number of workers and filters, every interleaving of worker steps, task insertions and removals", "why_tests_cant": "Mutual exclusion over all schedules.", "anchors": ["src/WorkersPool.cpp: WorkersPool worker loop, addTask, removeTask, TaskQueue", "src/Runnable.cpp: Runnable::runProcessFrame, setRunning, unsetRunning"]}
{"id": "C11", "title": "A notification to a filter is never lost by the pool", "statement": "A filter that is queued behind k others and idle is handed to a worker at the latest by the (k+1)-st hand-out, whatever else happens; and a registered filter that has been notified stays queued or in the hands of a worker as long as it reports pending work each time a worker is done with it. (Recorded exception, with the exact condition: a pick always deletes the front of the queue, so a notification that arrives while the filter is running and reaches the front is deleted when another filter is picked; if nothing is pending when the filter is done, it is not run again, while the other one is run twice.)", "quantifier": "every task-queue content, every set of running filters", "why_tests_cant": "Depends on the relative order of a running job and later jobs.", "anchors": ["src/WorkersPool.cpp: TaskQueue::pop, pushBack, worker loop"]}
{"id": "C12", "title": "A removed task is never run again", "statement": "After a task has been removed from the pool, no worker is ever given it again and none touches it once it is destroyed, provided no job of it is queued at that moment and no worker is between clearing its running flag and the end of its bookkeeping. (Recorded exceptions, each with a counterexample history: removal does not clear a queued job of the task; removeTask may return before the worker that ran the task has stopped using it; a new task under the same id is accepted but not scheduled while the old job is queued.)", "quantifier": "every pool state and schedule", "why_tests_cant": "Use after removal needs a specific interleaving.", "anchors": ["src/WorkersPool.cpp: WorkersPool::removeTask"]}
{"id": "C13", "title": "Pipeline graph stays consistent under every request sequence", "statement": "After any sequence of filter and path creations, connections, removals and stops: ids name at most one filter and one path, exactly the registered filters are scheduled, every filter object is registered once or deleted once, a creation with a used id, an unknown filter or repeated intermediate filters is refused, a filter is removed by a filter-removal request exactly when no path has it, and a refused request other than a stop changes nothing. Every registered path is made of registered filters as long as no path is removed whose intermediate filters another path has; removing a path keeps this exactly in that case. (Recorded exceptions, proved: removing a path with a shared intermediate filter leaves the other path with a missing filter and impossible to remove; connecting a path whose end went missing that way dereferences a null pointer. Removing an unknown path reports success and does nothing.)", "quantifier": "every sequence of pipeline requests", "why_tests_cant": "All request histories, including failed and repeated requests.", "anchors": ["src/PipelineManager.cpp: createFilter, createPath, connectPath, removePath, deletePath, removeFilter, addFilter", "src/Path.cpp: Path::hasFilter"]}
{"id": "C14", "title": "Stopping the pipeline releases everything", "statement": "From every state reachable by requests with at most one path, all of whose filters exist, stopping the pipeline manager succeeds, leaves no path and no filter registered and has deleted every filter object exactly once; a second stop is refused and changes nothing. (Recorded exceptions, proved: with two or more paths a stop never succeeds, the second deletion reads the deleted first path; a refused stop has already ended the worker threads.)", "quantifier": "every reachable pipeline state", "why_tests_cant": "Requires every reachable configuration; undefined behaviour may pass a test by luck.", "anchors": ["src/PipelineManager.cpp: PipelineManager::stop, deletePath"]}
{"id": "C15", "title": "Events run in time order, never early, each exactly once", "statement": "Each event pushed to a filter is taken exactly once or still queued, none is taken before its time stamp plus delay has elapsed (up to the truncation to milliseconds for events without delay), each time the filter polls, events are taken in non-decreasing order of their time stamps and none left queued is older than one taken, polling always comes to an end, and when it does an event that is due is left only behind an older one still waiting out its delay. (Recorded exception, proved: such an older event can hold back a due one arbitrarily long.)", "quantifier": "every multiset of events, every sequence of pushes and polls at arbitrary times", "why_tests_cant": "Needs every interleaving of pushes with the clock.", "anchors": ["src/Filter.cpp: pushEvent, processEvent", "src/Event.cpp: Event::operator<, canBeExecuted"]}
{"id": "C16", "title": "Time-paced filters advance their output clock monotonically and on a fixed grid", "statement": "A filter configured with a frame time has an output clock that never goes back; the time stamps of its outputs increase by at least one frame time, and by exactly one frame time whenever some new input lies within one frame time of the clock; with only older new inputs nothing is produced and the clock stands still; the clock is re-anchored, to the earliest new input, only when all new inputs are further ahead. (Recorded exceptions: a late or early input that arrives together with an on-time one is handed on with it, and an early input seen alongside a late one is consumed without being shown.)", "quantifier": "every frame time, every sequence of input time stamps on every reader", "why_tests_cant": "All input time-stamp sequences.", "anchors": ["src/Filter.cpp: BaseFilter::framesSync, demandOriginFramesFrameTime, demandOriginFramesBestEffort"]}
{"id": "C17", "title": "Sequence numbers identify source frames end to end", "statement": "A source filter gives consecutive sequence numbers to the frames it actually produced; a one-to-many filter copies the input's number to all outputs; a many-to-one filter gives consecutive numbers to successful outputs; hence within one stream the numbers seen by a consumer are strictly increasing and the numbers missing are as many as the queue's count of lost frames. (Recorded exception: a frame marked ready in a round that then reports failure is sent with a stale number.)", "quantifier": "every history of successful and failed processing rounds", "why_tests_cant": "All success/failure histories.", "anchors": ["src/Filter.cpp: HeadFilter::runDoProcessFrame, OneToManyFilter::runDoProcessFrame, ManyToOneFilter::runDoProcessFrame"]}
{"id": "C18", "title": "The DASH manifest window never exceeds its bound and slides in order", "statement": "After any sequence of segment announcements for an adaptation set, its timeline lists at most the configured number of segments, they are the most recent ones in announcement order, and each announcement that pushes a segment out reports it, so that the files on disk are exactly those listed. (If the bound is lowered by reconfiguration, several are dropped but only the last is reported; a segment starting at time 0 is never cleaned; a start time announced twice removes a file that is still listed; a changed folder or base name, a removed representation, or a failed write leaves files behind: recorded as counterexamples.)", "quantifier": "every sequence of announcements and configurations", "why_tests_cant": "All histories including reconfiguration.", "anchors": ["src/modules/dasher/MpdManager.cpp: AdaptationSet::updateTimestamp, MpdManager::updateAdaptationSetTimestamp, configure", "src/modules/dasher/Dasher.cpp: Dasher::cleanSegments"]}
{"id": "C19", "title": "DASH video segments start at a key frame, reach the target duration and tile the timeline", "statement": "Unless a buffer overflows (which cannot happen while every collected group fits the buffers), every generated video segment begins with an intra sample; every frame received from the first intra frame on appears in exactly one segment, in order, or is still collected; segments are numbered consecutively; each announces its first frame's presentation time and a duration that is the sum of its sample durations; an intra frame closes a segment exactly when the collected duration plus that of the last frame reaches the target (so a segment may be one frame short); if presentation and decode times differ by a constant, consecutive segments abut. Audio segments hold every frame once and in order, and without video close once the target is reached. Recorded exceptions: after a frame longer than the target nothing is closed (an unsigned subtraction wraps); with reordered frames segments overlap or leave gaps; audio start times are cut to 32 bits.", "quantifier": "every sequence of samples (time stamps, sizes, key flags) and every target duration", "why_tests_cant": "All sample sequences; cut decisions depend on accumulated unsigned arithmetic.", "anchors": ["src/modules/dasher/i2libdash.c: generate_video_segment, generate_audio_segment, add_video_sample, add_audio_sample, force_generate, context_refresh", "src/modules/dasher/Dasher.cpp"]}
{"id": "C20", "title": "Generated MP4 init and media segments are well-formed box trees", "statement": "Every initialisation segment and media segment written is a sequence of ISO boxes whose 32-bit sizes tile the output exactly, recursively for container boxes, with the boxes required by the format in order (ftyp, moov(mvhd, mvex, trak...) / styp, sidx, moof(mfhd, traf(tfhd, tfdt, trun)), mdat), and the number of bytes reported equals the number of bytes written; dimensions, rates and codec data can be read back. Read with the layouts of the standard, every field of every box holds what the standard fixes or what was given, and the descriptors of sound name stream 1 of MPEG-4 audio with the codec data. Recorded exceptions: the number for the next track is that of the track in use; the sampling rate of sound has the time base before the point and the rate behind it; collected data close to the size of the output buffer overflows it; audio codec data of 105 bytes or more makes the descriptors unreadable.", "quantifier": "every context (codec data, dimensions, rates) and every list of samples whose total stays below 2^32", "why_tests_cant": "Sizes are back-patched arithmetic on variable-length data; tests check a couple of files.", "anchors": ["src/modules/dasher/i2libisoff.c: initVideoGenerator, initAudioGenerator, segmentGenerator, write_moov, write_moof, write_traf, write_trun, write_sidx, write_stsd"]}
{"id": "C21", "title": "Media segment offsets point at the sample data", "statement": "In every media segment the run's data offset, counted from the start of the moof box, is the position of the first media byte; the sample sizes listed sum to the media payload and cut it back into the original samples in order; the segment index's referenced size is the combined size of moof and mdat; durations, key flags and composition offsets can be read back for each sample.", "quantifier": "every list of samples and both media types", "why_tests_cant": "Offset arithmetic must hold for every number of samples.", "anchors": ["src/modules/dasher/i2libisoff.c: write_trun, write_sidx, segmentGenerator, write_tfdt"]}
{"id": "C22", "title": "Length-prefixed video samples decode back to the original NAL units", "statement": "Appending NAL units to a DASH video sample produces a buffer from which the standard length-prefixed parser recovers exactly the appended units in order; a unit that does not fit is refused and leaves the buffer unchanged; start codes (3 or 4 bytes) are removed and nothing else. (Recorded exceptions: the size check is made modulo 2^32, so a unit within a few bytes of 2^32 passes it and overruns the buffer; an AVC unit declared shorter than the start code its buffer shows is undefined behaviour.)", "quantifier": "every list of NAL units of any size below 2^32 and every buffer limit", "why_tests_cant": "Round-trip over all byte strings.", "anchors": ["src/modules/dasher/DashVideoSegmenter.cpp: appendNalToFrame, detectStartCode"]}
{"id": "C23", "title": "Decoder configuration records carry the parameter sets unchanged", "statement": "The AVC (HEVC) configuration record produced from stored parameter sets, when parsed according to the format, yields exactly those sets with NAL length size 4. (Recorded exceptions: the AVC profile, compatibility and level bytes are the first three bytes of the stored SPS, NAL header included, so they are off by one and the profile is the NAL header; the HEVC profile and level are constants; an AVC SPS shorter than 3 bytes is read out of bounds.)", "quantifier": "every SPS/PPS(/VPS) byte string of length below 2^16 (SPS of at least 3 bytes)", "why_tests_cant": "Round-trip over all byte strings; too-short sets are undefined behaviour.", "anchors": ["src/modules/dasher/DashVideoSegmenterAVC.cpp: createExtradata", "src/modules/dasher/DashVideoSegmenterHEVC.cpp: createExtradata"]}
{"id": "C24", "title": "AAC stream headers are translated faithfully into decoder configuration", "statement": "For every 7-byte ADTS header the audio object type, sampling-rate index and channel configuration placed in the AudioSpecificConfig are those of the header. The configuration held after any history of frames is that of the newest accepted frame. (Recorded exceptions: the channel configuration drops a shift, so configurations 4-7 are wrong; the RTP path prints the configuration text of five characters into an array of two, undefined behaviour for every valid header; a new initialisation segment is made for every frame.)", "quantifier": "every ADTS header", "why_tests_cant": "All 2^56 headers; test streams are stereo.", "anchors": ["src/modules/dasher/DashAudioSegmenter.cpp: getProfileFromADTSHeader, getSamplingFrequencyIndex, getChannelConfiguration, getExtradata", "src/modules/transmitter/ADTSStreamParser.cpp"]}
{"id": "C25", "title": "Textual names of codecs, formats, filter types and roles convert back to the same value", "statement": "For each enumerated type the control protocol prints and parses, converting a value to its name and back yields the value, and distinct values have distinct names. (Pixel formats do not satisfy this: the printed names are not the accepted names; recorded as a counterexample with the exact set that does.)", "quantifier": "every value of every enumeration, every input string for the reverse direction", "why_tests_cant": "The reverse direction ranges over all strings.", "anchors": ["src/Utils.cpp: getFilterTypeFromString, getFilterTypeAsString, getVideoCodecFromString, getAudioCodecFromString, getPixTypeFromString, getSampleFormatFromString, getTxFormatFromString"]}
{"id": "C26", "title": "Bit-level reader inverts the bit-level writer", "statement": "Any sequence of fixed-width fields, Exp-Golomb unsigned and signed codes and raw bytes written to a large enough buffer is read back unchanged by the reader in the same order; the positions of reader and writer agree; reading past the end never touches memory outside the buffer and returns zero bits. (Recorded: unsigned codes from 65535 on cannot be written, because the writer shifts a 32-bit value by 32 bits or more; the reader overflows on codes with 31 or more leading zeros; raw bytes are copied at the current byte whatever the bit position within it, so they must be byte-aligned.)", "quantifier": "every sequence of fields, every value in range, every buffer size and starting bit position", "why_tests_cant": "All values and alignments.", "anchors": ["src/modules/transmitter/SPSparser/bs.h: bs_read_u, bs_write_u, bs_read_ue, bs_write_ue, bs_read_se, bs_write_se"]}
{"id": "C27", "title": "Emulation-prevention removal recovers the raw payload", "statement": "For every raw byte payload, inserting emulation prevention as the standard prescribes and then applying the library's extraction gives back the payload; the extraction never writes more than the output buffer size and refuses exactly the forbidden start-code patterns. (Recorded: a payload ending in an odd number of zero bytes, which no legal payload does, is not recovered.)", "quantifier": "every payload and every input byte string", "why_tests_cant": "All byte strings.", "anchors": ["src/modules/transmitter/SPSparser/h264_stream.c: nal_to_rbsp"]}
{"id": "C28", "title": "Picture dimensions announced by an SPS are recovered", "statement": "For every sequence parameter set encoding (any profile branch, any cropping, any VUI and HRD), parsing the unit as transmitted yields every syntax element that was encoded, in particular the coded width and height in macroblocks and the crop rectangle; the width and height reported are the displayed ones for progressive 4:2:0 video, and generally exactly when the crop units are 2 or nothing is cropped; the frame rate is time scale over twice the units in a tick, rounded down. (Recorded: profiles 244, 44, 83, 86, 118, 128, 134, 135, 138, 139 are not recognised as carrying the high-profile extension and are misread; transmitted scaling lists are not skipped and shift everything after them; interlaced and non-4:2:0 cropping uses the wrong unit; oversized cycle counts write past an array; units from 2^30 on overflow.)", "quantifier": "every value assignment of the SPS syntax elements", "why_tests_cant": "All combinations of variable-length fields.", "anchors": ["src/modules/transmitter/SPSparser/h264_stream.c: read_seq_parameter_set_rbsp", "src/modules/transmitter/H264VideoStreamSampler.cpp: updateSPSInfo"]}
{"id": "C29", "title": "JSON string escaping round-trips", "statement": "Escaping any string and unescaping the result returns the original string; the escaped text contains no bare quote and no control character that has an escape.", "quantifier": "every string", "why_tests_cant": "All strings.", "anchors": ["src/Jzon.cpp: Value::EscapeString, Value::UnescapeString"]}
{"id": "C30", "title": "A JSON document written by the library is read back equal", "statement": "Writing a JSON tree in any format and parsing the text succeeds and yields the same tree, and the text announces the right kind of document, whenever every string value ends in something other than a backslash, every key has quotes only after backslashes and no backslash at its end, and every number is a plain decimal. Recorded exceptions: a string ending in a backslash, a key with a bare quote, and a number in exponent notation (which setting a large floating value produces) are not read back; an unclosed document is accepted and two documents in one text are merged; a string given to a value has escape sequences in it interpreted, so only strings without backslashes are certain to be stored as given.", "quantifier": "every JSON tree of any depth and width, every whitespace style offered by the writer", "why_tests_cant": "Unbounded trees.", "anchors": ["src/Jzon.cpp: Writer::writeNode, Parser::Parse, tokenize, assemble, RemoveWhitespace, readString, interpretValue"]}
{"id": "C31", "title": "The audio mixer sums every channel's sample at its own time position", "statement": "Each output sample at time position t is obtained from silence by adding, in order of arrival, gain times master gain times the sample each accepted frame supplied for position t, and compressing after each addition; while the absolute values for a position add up to no more than the threshold this is their plain sum and independent of the order of arrival; positions nobody supplied are silent; output frames follow one another in time without gap, counted from the origin of the timeline. A frame that does not fit the window restarts the timeline. Stated for up to 2^31 samples since the origin. Recorded exceptions: above the threshold the order of arrival matters; after a restart unplayed samples are mixed into the new timeline, at their old position modulo the buffer size; a frame is refused for lack of room although its place is free when another channel is ahead; a frame from before the origin restarts the timeline instead of being late; at the end of the 32-bit counters the timeline restarts.", "quantifier": "every set of channels, every arrival order, every frame history", "why_tests_cant": "Arrival orders and wrap-around positions are unbounded.", "anchors": ["src/modules/audioMixer/AudioMixer.cpp: pushToBuffer, mixSample, extractMixedFrame, setChannelGain"]}
{"id": "C32", "title": "Mixer volumes stay in range and commands do what they name", "statement": "After any sequence of commands and of channels coming and going each channel's gain is between 0 and 1; commands naming an unknown channel, and all refused commands, change nothing; a volume command sets the named channel's gain limited to the range and no other; mute silences the named channel only; solo gives it full gain and silences all others; repeating mute or solo changes nothing more. Recorded exceptions: mute and solo forget the previous gains, so they cannot be undone; the master gain takes any value.", "quantifier": "every sequence of volume commands", "why_tests_cant": "All command histories.", "anchors": ["src/modules/audioMixer/AudioMixer.cpp: changeChannelVolumeEvent, muteChannelEvent, soloChannelEvent, changeMasterVolumeEvent, muteMasterEvent"]}
{"id": "C33", "title": "Mixed audio never leaves the representable range", "statement": "In exact arithmetic, with any threshold between 0 and 1, the mix compressor keeps the sum of two values of [-1, 1] in [-1, 1], is the identity below the threshold, odd and strictly monotone; with gains between 0 and 1 every mixed sample lies strictly inside full scale whatever was supplied, so conversion to 16-bit samples fits; converting any 16-bit sample to a number and back is the identity. Recorded exceptions: a master gain above 1 takes the mix out of range; exactly full scale does not fit 16 bits.", "quantifier": "every pair of in-range sample values; every 16-bit sample", "why_tests_cant": "Continuum of sample values.", "anchors": ["src/modules/audioMixer/AudioMixer.cpp: mixSample, bytesToFloat, floatToBytes"]}
{"id": "C34", "title": "The video mixer paints every enabled channel exactly once in layer order", "statement": "A mixed picture shows at every place what is seen when the enabled channels that have a frame are painted on black, once each, lower layers first and within a layer by channel number; with opaque channels the last one painted is seen. Its time is the latest of the painted frames, or the filter's clock when a rate is set. Configuration is accepted exactly when the channel exists, position and size are positive, opacity is between 0 and 1 and the layer between 0 and the channel limit; refused commands change nothing. A round fails only for a frame that is not a video frame. (Recorded: a channel on the top layer number is accepted and never painted.)", "quantifier": "every channel configuration and every set of available frames", "why_tests_cant": "All configurations.", "anchors": ["src/modules/videoMixer/VideoMixer.cpp: doProcessFrame, configChannel0, pasteToLayout"]}
{"id": "C35", "title": "Mixer and splitter regions stay inside the picture", "statement": "Whatever a channel changes lies inside the mixed picture, and painting succeeds exactly when the channel's corner falls inside the picture and its size is at least one pixel (or already that of the frame); with positions up to 1 and sizes of one pixel or more the mixer never aborts, after any commands. After any commands the splitter produces a piece exactly when the output's crop was configured and lies inside the input; the piece is that region, otherwise nothing is produced. (Recorded: positions above 1 and sizes below a pixel are accepted by the configuration and make the imaging library throw when painted; the splitter announces a third of the bytes it writes; a crop whose sums exceed an int overflows.)", "quantifier": "every accepted configuration and every input size", "why_tests_cant": "All geometry combinations.", "anchors": ["src/modules/videoMixer/VideoMixer.cpp: pasteToLayout", "src/modules/videoSplitter/VideoSplitter.cpp: doProcessFrame, configCrop0"]}
{"id": "C36", "title": "Shared-memory export never overwrites a frame the peer is reading and the header is readable", "statement": "In every byte-by-byte interleaving with a peer that waits for the area, reads and hands it back, the n-th time the peer takes the area every byte it reads belongs to the n-th picture offered, header and data complete; so pictures are read in order, none twice, none skipped, and nothing is written while the peer reads. The header fields read back to the frame's number, size, format, time and length. Raw pictures are offered whole when the peer has handed the area back; coded H.264 pictures separated by delimiters are offered when the next picture begins, all units in order behind 4-byte start codes. (Recorded: a coded picture is shown under the number and time of the next one; without delimiters nothing is ever offered; units of other types are dropped; a picture larger than the area is written beyond its end; sequential consistency is assumed, the code has no barriers.)", "quantifier": "every interleaving of exporter and peer; every header value in range", "why_tests_cant": "Cross-process interleavings.", "anchors": ["src/modules/sharedMemory/SharedMemory.cpp: doProcessFrame, writeFramePayload, isWritable"]}
{"id": "C37", "title": "UltraGrid video packets reassemble to the frame", "statement": "Fragmenting any frame for UltraGrid transport produces packets that fit the packet size, whose headers carry the frame's number, length, picture size, codec and rate, and whose offsets and lengths tile the frame, so that a receiver rebuilds it from the packets in any order of arrival; only the last packet is marked and the next frame gets the next number. (Recorded: a payload size of exactly the header makes no progress; the first packet copies the whole frame behind its header whatever the packet size, so a frame that does not fit in the buffer offered with 48 bytes to spare overflows it.)", "quantifier": "every frame length and every packet size above the header size", "why_tests_cant": "All lengths and sizes.", "anchors": ["src/modules/transmitter/UltraGridVideoRTPSink.cpp: UltraGridVideoFragmenter::doGetNextFrame, loadPayloadHeader"]}
{"id": "C38", "title": "AAC over RTP announces the correct access-unit size", "statement": "The access-unit header sent with each AAC packet announces 16 bits and decodes to the size of the whole frame with index 0, the last packet of a frame is marked. (Sizes of 8192 bytes and more are announced modulo 8192: recorded.)", "quantifier": "every frame size", "why_tests_cant": "All sizes.", "anchors": ["src/modules/transmitter/CustomMPEG4GenericRTPSink.cpp: doSpecialFrameHandling"]}
{"id": "C39", "title": "H.264 access units are regrouped losslessly", "statement": "Feeding any sequence of NAL units delimited by access-unit delimiters to the sampler yields one output per access unit, containing exactly its units in order, each with the configured prefix (start code or length), from which a reader of the length format gets the units back. (Recorded: the delimiters are not passed on and the output carries the time of the delimiter after it; a unit that does not fit is lost and splits its access unit; a buffer left without room for the next prefix is overrun.)", "quantifier": "every sequence of NAL units that fits the buffer", "why_tests_cant": "All sequences and sizes.", "anchors": ["src/modules/transmitter/H264VideoStreamSampler.cpp: afterGettingFrame1"]}
{"id": "C40", "title": "Parameter sets are extracted from Annex-B extradata", "statement": "Of the NAL units in Annex-B extradata, split at long or short start codes, exactly the last one of each parameter set type is kept, unchanged, and success is reported exactly if all types are there. (Recorded: the search reads three bytes behind the extradata, which are behind the end of the allocation, so the property is stated for extradata followed by three readable bytes, of any value; sizes are announced modulo 256; zero bytes in front of a start code stay with the unit.)", "quantifier": "every list of NAL units free of start-code emulation", "why_tests_cant": "All byte strings.", "anchors": ["src/modules/transmitter/H264or5QueueSource.cpp: parseExtradata, feedHeaders, startOffset"]}
{"id": "C41", "title": "Queue sources hand each frame to the network exactly once and account for truncation", "statement": "For any interleaving of frame arrival, packetiser requests and stops, each frame accepted is answered at most once and in order, an answer is always the frame currently held cut to the room asked for, delivered size plus truncated size is the length of the frame (without its start code), a frame is released exactly if it has been answered or the packetiser is not running, and a frame held answers the next request at once. When the transmitter has finished a round no source holds a frame any more, whatever the packetisers did, and the round ends once the triggers have fired if every packetiser waits for data or has stopped. (Recorded: H.264 and H.265 sources answer again with the same frame if asked before the release; frames shorter than a start code can make the size wrap; a running packetiser that does not ask blocks the round for all.)", "quantifier": "every interleaving of setFrame and deliver requests, every frame and buffer size", "why_tests_cant": "All interleavings.", "anchors": ["src/modules/transmitter/QueueSource.cpp: deliverFrame, gotFrame, setFrame, doGetNextFrame", "src/modules/transmitter/H264or5QueueSource.cpp: deliverFrame", "src/modules/transmitter/SinkManager.cpp: doProcessFrame"]}
{"id": "C42", "title": "The demultiplexer splits an H.264 packet into its NAL units", "statement": "An H.264 packet of NAL units behind long or short start codes (or an AVCC packet as libav converts it) is output as the same units in order, one per call, each in a frame of its own behind a 4-byte start code; packets of other streams come out whole; packets of unknown or unread streams come out not at all; after every history of calls and openings all buffers and packets are given back. (Recorded: a last unit that takes at most seven bytes with its start code is merged with the unit before it; three leading zero bytes give a spurious frame; a packet without start code, or larger than the frame, is undefined behaviour; an AVCC stream without converter is announced as framed though it is not.)", "quantifier": "every packet built of NAL units free of start codes", "why_tests_cant": "All byte strings.", "anchors": ["src/modules/headDemuxer/HeadDemuxerLibav.cpp: findStartCode, doProcessFrame"]}
{"id": "C43", "title": "Encoded video keeps its source time stamps despite reordering", "statement": "For every encoder whose coded pictures are of pictures given to it, with increasing decoding indices not above the presentation index, each coded picture carries the presentation time, origin time and sequence number of the raw picture it encodes and the decoding time its decoding index names; with decoding indices increasing by one, only entries of pictures still held back by the encoder are kept. (Recorded: the first coded pictures of an encoder with reordering get the decoding time 0; entries jumped over when the encoder is opened anew, and those of pictures with too many NAL units, are never released.)", "quantifier": "every reordering behaviour of the encoder (strictly increasing decode indices not exceeding presentation indices) and every input time stamp", "why_tests_cant": "All reorderings and stream lengths.", "anchors": ["src/modules/videoEncoder/VideoEncoderX264or5.cpp: doProcessFrame", "src/modules/videoEncoder/VideoEncoderX264.cpp: encodeFrame"]}
{"id": "C44", "title": "Key frames are forced on a common time grid", "statement": "With a GOP time configured, an intra picture is requested exactly for the first picture at or after each grid point reference + k*gopTime (the reference being the one set or the first picture's time), so that encoders given the same reference and time stamps request intra pictures at the same pictures, and one joining later with a reference on the grid agrees from its second picture on; a requested intra picture is asked for once. (Recorded: a reference long past makes every picture an intra picture until it is caught up; encoders without reference disagree; a request is lost when the encoder fails.)", "quantifier": "every time-stamp sequence with steps not larger than the GOP time, every reference", "why_tests_cant": "All time-stamp sequences.", "anchors": ["src/modules/videoEncoder/VideoEncoderX264or5.cpp: doProcessFrame, setGopReferenceTimeEvent, configure0"]}
{"id": "C45", "title": "Capture device follows its state machine", "statement": "For every outcome of the system calls and every history, exactly one descriptor of the device is held unless it is closed and then none, it streams exactly while capturing, it is only read while capturing, a release closes a device that stops and unmaps, and configuring a closed device either captures in the format and at the rate the driver settled on or leaves it closed. (Recorded: a start failure followed by an unmapping failure keeps it open; reconfiguring a capturing device passes the force flag as frame rate, dividing by zero without the flag; a reconfiguration whose stop or unmapping fails reports success; capturing from unmapped buffers and unmapping twice follow; a failed mapping leaks the buffers mapped.)", "quantifier": "every sequence of configure and release calls and every pattern of system-call failures", "why_tests_cant": "All failure patterns.", "anchors": ["src/modules/V4LCapture/V4LCapture.cpp: configure, releaseDevice, openDevice, initDevice, startCapturing, stopCapturing"]}
{"id": "C46", "title": "Transmission connections stay consistent with readers", "statement": "After any sequence of adding and removing connections and readers no request is undefined behaviour; connection ids are unique; each connection refers only to existing readers that have a source, and reports exactly the readers whose data it sends; the RTSP server offers exactly the RTSP connections there, each under its own name; a request naming an unknown reader or used id is refused, and a refused request for a connection changes nothing; a connection is accepted exactly when its format can carry the readers named (plain: one reader of known codec and an even port; UltraGrid: H.264 or MP3; transport stream: at most one video of H.264 or H.265 and one audio of AAC or MP3; RTSP: different readers), others staying as they are; removing a connection removes exactly that one; removing a reader removes exactly the connections that use it. Recorded exceptions: a second RTSP connection of the name of one there is accepted and deletes the first one's session, after which removals use freed memory; a refused RTSP request with such a name takes the existing stream off the server; a transport stream over RTP asked for a first reader it cannot carry is accepted without it; removing a reader used by no connection reports failure and keeps its source, so that a later reader of that id with an unsupported codec is accepted; a reader numbered -1 is not reported by a transport stream and leaves the connection behind; a refused reader leaves an entry whose removal dereferences null.", "quantifier": "every request sequence", "why_tests_cant": "All histories.", "anchors": ["src/modules/transmitter/SinkManager.cpp: addRTSPConnection, addRTPConnection, removeConnection, removeConnectionByReaderId, specificReaderDelete"]}
{"id": "C47", "title": "A filter's connections respect its declared limits", "statement": "Whatever sequence of connect, share and disconnect calls and processing rounds is made, no filter ever has more writers than its maximum, nor (without shares) more readers; each writer has a queue of its own made for it, and no filter has two writers or two readers of one id; a queue counts as connected exactly while it has both a writer and a reader, and exists exactly while it has one of them; connect succeeds exactly when both filters have room, neither id is taken and all filter hooks agree, and a refused connect leaves writers and used queues as they were; a round removes exactly the ends that lost their other end; connecting and taking both ends down in either order restores the filters and frees the queue; generated ids are not in use (a filter limited to one always answers 1); no such history is undefined behaviour. Recorded exceptions: sharing ignores the maximum number of readers; when the reading filter refuses the configuration a null reader stays, which takes the slot and makes disconnecting it, sharing it or a paced round undefined; whenever the reading side refuses, the queue already made is lost; reconnecting under the same id before the reading filter has had a round is refused; a filter given one reader twice can disconnect only one of them; connecting a filter to itself blocks for ever.", "quantifier": "every sequence of connect, share and disconnect calls between any filters", "why_tests_cant": "All histories.", "anchors": ["src/Filter.cpp: connect, setReader, setWriter, shareReader, generateReaderID, generateWriterID, disconnectReader, disconnectWriter"]}
{"id": "C48", "title": "Receiver hands over complete network frames with correct time", "statement": "Once a stream is being received into its queue, each round takes at most one frame from the network and commits it in that round, once, with exactly its bytes (cut off at the size of the queue's frame), that length, and the presentation time in microseconds; a frame slot is not reused until the pipeline provides a new one; while the reader keeps up it gets exactly the frames of the network in order. Recorded exceptions: the frame that completes the fetch under way when the writer is connected is committed with its length and time over stale bytes, with a length not limited by the frame; a stream disconnected while its sink waits for a frame is never received again, reconnecting included; a queue freed while the library receives into it is written after the free.", "quantifier": "every interleaving of slot provision and frame arrival", "why_tests_cant": "All interleavings.", "anchors": ["src/modules/receiver/QueueSink.cpp: continuePlaying, afterGettingFrame, setFrame"]}
{"id": "C49", "title": "Writer and reader threads may use one audio ring at the same time", "statement": "While one thread pushes audio and another reads it, copying byte by byte in any interleaving, the bytes delivered since the last flush are the first of those accepted since then, in order, and the buffer's count is the number accepted minus the number delivered, as long as no update of the count has been overwritten by one of the other thread that had read it before; in every schedule the count stays within the capacity and is off by exactly the bytes of the overwritten updates, until the next flush. (Recorded: the writer updates the count outside the lock, so overlapping updates do corrupt it in both directions: bytes are delivered twice, or present bytes are never delivered.)", "quantifier": "every buffer size and every interleaving of the two threads' loads and stores", "why_tests_cant": "The corruption needs one thread to be interrupted between a load and a store.", "anchors": ["src/AudioCircularBuffer.cpp: pushBack, popFront, getFront, addFrame"]}
{"id": "C50", "title": "Synchronised inputs wait for each other within a margin", "statement": "A filter that synchronises its inputs takes from all of them when every input has a frame, none is full and all are within the margin of the newest; otherwise it takes exactly from those inputs that are full or lag the newest by more than the margin, so the newest input that is not full is held back while another lags. What it hands on are exactly the frames these inputs show, in order; it goes on exactly if one of them is new. (Recorded: a filter with a frame time looks at every input as soon as one is selected; no filter that synchronises has a frame time by default. A failed reader configuration leaves a null entry whose use in this decision is undefined behaviour: recorded.)", "quantifier": "every number of inputs and every combination of current times, fill levels and margins", "why_tests_cant": "All combinations of input states.", "anchors": ["src/Filter.cpp: framesSync, demandOriginFrames", "src/IOInterface.cpp: Reader::getCurrentTime, Reader::isFull"]}
{"id": "C51", "title": "The manifest describes the current representations", "statement": "After any sequence of updates and removals, a video adaptation set lists exactly the representations updated and not removed since, each with the values of its last update, shows the frame rate of the last update, and its maximum width and height are at least those of every representation listed. (The maxima never shrink when a representation gets smaller or is removed: recorded.)", "quantifier": "every sequence of updates and removals", "why_tests_cant": "All histories.", "anchors": ["src/modules/dasher/MpdManager.cpp: VideoAdaptationSet::updateVideoRepresentation, AdaptationSet::removeRepresentation, getRepresentation"]}
{"id": "C52", "title": "The DASH video input assembles frames from NAL units", "statement": "Fed the NAL units of any sequence of pictures (delimiters, parameter sets and SEI, then slices; each picture told from the previous one by a delimiter or a later time; each within the frame limit), the DASH video input hands on exactly one frame per picture, in order, one picture late: its slices length-prefixed, with the picture's time and size, marked intra exactly when its slices are. Units of other kinds are ignored. (Recorded exceptions: H.264 data partitions and H.265 sub-layer, leading and broken-link slices are treated as unknown and lost; an SEI after the slices loses the intra mark; pictures with equal or decreasing times and no delimiter are merged; with two picture parameter sets per intra picture a configuration record combines a new sequence set with an old picture set.)", "quantifier": "every sequence of well-formed pictures of any number and sizes, both codecs", "why_tests_cant": "All sequences; the exceptions depend on encoder settings a test does not use.", "anchors": ["src/modules/dasher/DashVideoSegmenter.cpp: manageFrame, appendNalToFrame", "src/modules/dasher/DashVideoSegmenterAVC.cpp: parseNal, updateExtradata", "src/modules/dasher/DashVideoSegmenterHEVC.cpp: parseNal, updateExtradata"]}
{"id": "C53", "title": "UltraGrid audio packets carry header and samples in network order", "statement": "Every audio frame sent to an UltraGrid receiver in one packet is preceded by a header that reads back to the channel, the frame number, offset 0, the length of the frame, the sample size, the rate and the codec; 16 bit PCM samples are in network byte order and other data is unchanged; the packet is marked and the next frame gets the next number modulo 2^22. (Recorded: a frame that must be split aborts the process.)", "quantifier": "every frame, channel, number, sample size, rate and codec tag", "why_tests_cant": "All byte strings.", "anchors": ["src/modules/transmitter/UltraGridAudioRTPSink.cpp: doSpecialFrameHandling"]}
{"id": "C54", "title": "Start codes are put in front of units for transport streams", "statement": "Every NAL unit sent in a transport stream comes out behind one long start code, unchanged if it fits and otherwise cut to the room with the missing bytes reported; the end-of-picture mark is set exactly by slices.", "quantifier": "every unit, buffer size of at least four bytes and both codecs", "why_tests_cant": "All byte strings and sizes.", "anchors": ["src/modules/transmitter/H264or5StartCodeInjector.cpp: afterGettingFrame1"]}
{"id": "C55", "title": "Demultiplexed frames carry the time of their packet", "statement": "Every frame cut from a packet has the packet's presentation and decoding time, in microseconds on the input's clock, less than a microsecond off and in the order of the packets' time stamps. (Recorded: a packet without time stamp gets the last ticks of its stream unscaled, so time can run backwards; a time before zero of a file, or a missing decoding time, overflows.)", "quantifier": "every packet, time base and start time", "why_tests_cant": "All time stamps and time bases.", "anchors": ["src/modules/headDemuxer/HeadDemuxerLibav.cpp: doProcessFrame, setURI"]}
{"id": "C56", "title": "A configure event changes exactly the encoder settings it names", "statement": "An encoder configure event with numbers that are not negative is refused without effect exactly when bit rate, GOP length or thread count would be zero or the preset empty; otherwise exactly the settings named change, a GOP time is raised to at least a second, frame rate zero means the default, and the encoder is configured anew. (Recorded: after frame rate zero any later event, even an empty one, sets a frame time; negative numbers are taken as huge ones.)", "quantifier": "every settings and every event", "why_tests_cant": "All combinations of values.", "anchors": ["src/modules/videoEncoder/VideoEncoderX264or5.cpp: configure0, configEvent"]}
{"id": "C57", "title": "Pictures are encoded by an encoder of their own size and format", "statement": "After any history of pictures, configurations and library failures, a picture is only encoded by a library encoder opened for exactly its width, height and pixel format, and it is encoded when its format is supported and the library opens. (Recorded: when opening fails once for a new size, later pictures of that size are dropped without another attempt.)", "quantifier": "every sequence of picture formats, configurations and library answers", "why_tests_cant": "All histories and failure patterns.", "anchors": ["src/modules/videoEncoder/VideoEncoderX264.cpp: reconfigure, encodeFrame", "src/modules/videoEncoder/VideoEncoderX264or5.cpp: doProcessFrame"]}
{"id": "C58", "title": "A captured picture reaches the frame whole", "statement": "In a packed pixel format and a size of at most 1920x1080 every picture the driver delivers is copied whole to the frame with its size, the rest of the frame is untouched, and it counts as a picture exactly when the buffer could be given back. (Recorded: larger pictures overrun the frame; of planar pictures only the luma and of compressed ones nothing is copied.)", "quantifier": "every picture size, content and driver answer", "why_tests_cant": "All sizes and contents.", "anchors": ["src/modules/V4LCapture/V4LCapture.cpp: doProcessFrame, getFrame, readFrame", "src/VideoFrame.cpp: InterleavedVideoFrame"]}
{"id": "C59", "title": "The capture pace follows the device", "statement": "Whatever the intervals between pictures, the frame duration used is the configured one or lies between the shortest and longest interval; a device delivering at a steady pace is followed to within a 128th after 130 pictures for ever; a round never asks to wait longer than a frame duration and its 64th, and rounds within a 64th of the schedule keep it exactly. (Recorded: a pause between two captures counts as an interval.)", "quantifier": "every sequence of intervals", "why_tests_cant": "All interval sequences of any length.", "anchors": ["src/modules/V4LCapture/V4LCapture.cpp: doProcessFrame, getAvgFrameDuration"]}
{"id": "C60", "title": "Descriptions made for plain RTP streams read back", "statement": "Whatever the name of a session (without a newline) and whatever plain RTP streams are asked for in a request (media names without spaces and newlines), the session description made for them, read by the rules of the standard, has that name and exactly those streams in their order, each with its port, bandwidth, payload number (96 for H264, 14 for mp3, 97 otherwise), codec, clock rate and channels (none when 0) and the parameters of H264 and AAC audio; and a request is refused as a whole exactly when one of its codecs is not among pcmu, opus, pcm, MPEG4-GENERIC, mp3 and H264. (Recorded: names are not checked, so that a space in a medium makes a description nobody can read; negative numbers come out as large ones.)", "quantifier": "every session name, number of streams and parameter values", "why_tests_cant": "The space of names, numbers and lists of streams is unbounded; tests try a few descriptions.", "anchors": ["src/modules/receiver/SourceManager.cpp: addSessionEvent, makeSessionSDP, makeSubsessionSDP", "src/Utils.cpp: getPayloadFromCodec"]}
{"id": "C61", "title": "Renaming a session keeps the rest of its description", "statement": "In a description from a server whose lines end with carriage return and newline (the last one perhaps with nothing) every line giving the session name is replaced by the name chosen here, and every other line is there, unchanged and in its place. (Recorded: of a description whose lines end with a newline alone all lines up to the next name run together into one, so that its streams are lost.)", "quantifier": "every description and name", "why_tests_cant": "All texts of any length.", "anchors": ["src/modules/receiver/Handlers.cpp: continueAfterDESCRIBE, modifySessionName"]}
{"id": "C62", "title": "Parameter sets of a session description reach the stream", "statement": "When the parameter sets of the description take at most 128 bytes with their start codes, the requests of an H.264 stream never overrun anything; as many requests as there are sets complete at once, and after any number of them the extradata are the sets taken so far, each behind a start code; every later unit of the network comes out behind a start code, whole if there is room and otherwise cut with the number of missing bytes told. A stream connected once all sets are taken announces, when it is sent on again, the last sequence and picture parameter set of the description. (Recorded: longer sets overrun the extradata, exactly when they exceed 128 bytes; the first requests complete with a frame size nobody has set; a buffer of less than four bytes is overrun; connected earlier the stream lacks sets.)", "quantifier": "every list of parameter sets, every sequence of requests, buffer sizes and network units", "why_tests_cant": "All sequences of any length.", "anchors": ["src/modules/receiver/H264VideoSdpParser.cpp: doGetNextFrame, afterGettingFrame1", "src/modules/receiver/SourceManager.cpp: fillH264or5ExtraData", "src/StreamInfo.hh: setExtraData", "src/modules/transmitter/H264or5QueueSource.cpp: parseExtradata"]}
{"id": "C63", "title": "Sessions of the receiver can be added, connected and removed within limits", "statement": "As long as streams do not end on their own, texts can be read and their streams set up, filters connect only when every session is described, and only RTSP sessions nobody is connected to are removed, no history of requests, rounds and answers is ever undefined, and every connected filter's stream has a working sink. An id in use is refused without effect; a request for streams that can be set up is answered with yes exactly if their ports are distinct and free, and then each has a sink of its own; a filter connecting to a port for the first time gets the description of the first stream there; removal takes away exactly the session and the sinks of its ports. (Recorded: removal of a session made from a text with a stream, of one with a connected filter, not yet described, ended or failed, a round or disconnection after a connected stream ended, a connection while a session with a smaller id waits for its description, and a text that cannot be read or whose stream cannot be set up are undefined; a session that failed or is over keeps its id for ever; so does a request refused because of a port in use; a port used again is connected with the description of its old stream; removing a session takes away the sink of another one's stream at a common port.)", "quantifier": "every history of requests, answers of servers, ends of streams, connections and rounds", "why_tests_cant": "All interleavings of requests and network answers of any length.", "anchors": ["src/modules/receiver/SourceManager.cpp: addSessionEvent, removeSession, initiateSession, allocQueue, specificWriterConfig, specificWriterDelete", "src/modules/receiver/Handlers.cpp: continueAfterDESCRIBE, continueAfterSETUP, continueAfterPLAY, subsessionAfterPlaying, shutdownStream, addSubsessionSink"]}
{"id": "C64", "title": "RTSP servers hear from the receiver in time", "statement": "While a session is played with keep-alives on and timers run with no more delay than the plan has room for (five seconds, or all but one second of a timeout of at most five), every keep-alive is sent within the server's timeout (60 seconds if it gave none) of the one before, the first within it of the answer to PLAY, and they go on for ever; without keep-alives asked for none is ever sent; a stream with a known duration under 4292 seconds is ended not before it and at most two seconds later, others never. (Recorded: when the duration is over the client is freed with its keep-alive still planned, which then uses freed memory; durations from 4293 seconds on are undefined; timeouts from 4300 seconds on wrap around, so that keep-alives may be sent without pause.)", "quantifier": "every timeout, duration, and history of timer events and delays", "why_tests_cant": "All timeouts, durations and delays, for sessions of any length.", "anchors": ["src/modules/receiver/Handlers.cpp: continueAfterPLAY, checkSessionTimeoutBrokenServer, streamTimerHandler, shutdownStream"]}
{"id": "C65", "title": "Statistics told of received streams are those of the stream", "statement": "Measurements less than a second late happen once a second without adding up their delays. Of a stream whose counters do not go back, the least and greatest bit rate and packet loss told are those of the seconds measured, also when packet counters wrap around 32 bits; the average lies between them if measurement began with the stream (and packets arrive only in seconds where some are expected), and the jitter told is the present, greatest and least one. (Recorded: packets arriving out of order give negative losses; bytes received before measurement began count in the average, which can exceed the greatest rate; the least jitter told is never above 40000; a clock set back hides what came; after a pause of 36 minutes no measurement is made for 35 more.)", "quantifier": "every sequence of measurements and counters", "why_tests_cant": "All sequences of counters of any length.", "anchors": ["src/modules/receiver/SourceManager.cpp: periodicStatMeasurement, scheduleNextStatsMeasurement, addNewSubsessionStats, doGetState"]}
{"id": "C66", "title": "Statistics told of transmitted streams are those of the stream", "statement": "After any measurements and receivers' reports the least and greatest bit rate, loss, delay and jitter told of a stream are those of all of them (least ones not above a million, of loss 100), the present ones those of the last; the bit rate is exact for fewer than 2^29 bytes a measurement; and a reader of the state that takes the last of members with the same name gets every stream's own values. (Recorded: one object is used for all streams of a connection, so that a reader that takes the first member, as this project's own, gets the first stream's values for all of them; with 2^29 bytes or more the bit rate wraps around; a loss above 100 in 256 at every report is told as a least loss of 100.)", "quantifier": "every sequence of measurements and reports, and every number of streams", "why_tests_cant": "All sequences of measurements of any length.", "anchors": ["src/modules/transmitter/Connection.cpp: ConnRTCPInstance::periodicStatMeasurement", "src/modules/transmitter/SinkManager.cpp: doGetState", "src/Jzon.cpp: Object::Add"]}
{"id": "C67", "title": "How the DASH filter joins its streams", "statement": "For every set of readers and every sequence of frames, the files written for a video stream (or an audio stream without video) are segments its segmenter closed, each at most once and in order. As long as files can be written and no stream gets more than one segment ahead, nothing is lost: with n the number of segments the slowest stream closed, exactly the first n segments of every stream have been written, the files of one set all carry the start of the lowest reader's segment, and the timeline lists exactly that reader's first n segments. Next to video, audio is closed and written in exactly the rounds in which every video stream has its segment, and the two timelines get equally many entries as long as every audio stream has something to close. The video sources are told a common reference time, one segment duration after the first stream's last frame, exactly when a set is written and the last frames in it differ. A reader is accepted exactly if the filter is configured, the reader new and the codec H.264, H.265 or AAC; it can be removed exactly if it was accepted. (Recorded: a stream that closes a second segment before another closes its first loses the first one; a file that cannot be opened leaves the others unlisted and mixes segments of different times afterwards; one audio stream without data makes the segments the others closed be lost.)", "quantifier": "all histories of configuration, readers and rounds, any number of streams, any segmenter answers", "why_tests_cant": "Needs several live streams drifting against each other for hours; a test sees one interleaving of frames and one set of streams.", "anchors": ["src/modules/dasher/Dasher.cpp:87-143", "src/modules/dasher/Dasher.cpp:210-396", "src/modules/dasher/Dasher.cpp:499-584", "src/modules/dasher/Dasher.cpp:644-678"]}
{"id": "C68", "title": "The common origin of DASH times", "statement": "After any history of readers and frames all streams of the DASH filter count time from the same origin, the time of the first frame handed to any stream whose time is not zero, and it never changes afterwards. A frame at or after the origin gets the time since then in units of its time base, rounded down, so that order is kept. (Recorded: if the first frame's time is zero the origin moves to a later frame; a frame from before the origin gets a time beyond two to the 63.)", "quantifier": "all histories, all time bases and times whose product fits 63 bits", "why_tests_cant": "Depends on the order in which the first frames of different streams arrive and on times over the whole 64-bit range.", "anchors": ["src/modules/dasher/Dasher.cpp:97-109", "src/modules/dasher/Dasher.cpp:523-545", "src/modules/dasher/Dasher.cpp:680-683"]}
{"id": "C69", "title": "The frames a queue is filled with", "statement": "For every stream description a queue either is refused or gets as many frames as asked for (at most 250), all of the stream's codec. Refused are exactly video without codec, MJPEG, raw video without pixel format, audio without codec and PCM without sample format. Coded video frames hold 2 MB (H.264, H.265) or 512 kB (VP8); a raw video frame holds every picture up to 1920x1080 of the announced pixel format, and a queue announced for RGB24 every such picture of any format but RGB32; an audio frame holds 100 ms of up to two channels of its sample format, planar exactly if the format is. A description with its codec's defaults set always has such frames. A queue of two or more such frames that is forced to hand one out does so after at most one flush. (Recorded: full RGB32 or 4K pictures do not fit a queue announced for RGB24; a compressed audio codec with a planar sample format gets a queue of NULL frames, whose writer never returns, as for MP3 announced with planar samples; rates from 21474837 overflow; clearing an interleaved frame of two channels writes past its buffer.)", "quantifier": "all stream descriptions, queue lengths, picture sizes and sample rates, all positions of the queue's indices", "why_tests_cant": "Buffer sizes must suffice for every format, size and rate; a test shows it for the few it tries and cannot show that a loop never ends.", "anchors": ["src/AVFramedQueue.cpp:29-103", "src/AVFramedQueue.cpp:124-256", "src/VideoFrame.cpp:69-98", "src/AudioFrame.cpp:29-122", "src/StreamInfo.hh:82-116"]}
{"id": "C70", "title": "What the video resampler delivers", "statement": "For every history of configuration events and frames, each frame is answered with a picture of the size last configured (a zero width or height: that of the frame itself) and the pixel format last configured, its length that of such a picture and all its times and its sequence number those of the frame, or with none; it is there whenever frame and picture have a format and a size above zero and the library does its work. A change of the size or format of the frames or of the configuration takes effect from the very next frame. A configuration event replaces exactly the parameters it gives; the frame rate kept when none is given is the one set before. (Recorded: nothing compares the picture's size to the frame's room, so that a picture overruns a frame exactly if it is larger, e.g. full RGB32 pictures in the filter's own queue; before a format is configured an uninitialised one is used; a context made for a picture that cannot be laid out would be used with another one; YUVJ420P cannot be asked for; asking for no format is answered with failure but stops the delivery.)", "quantifier": "all histories of configuration events and frames, all sizes, formats and library answers, all uninitialised values", "why_tests_cant": "The context kept between frames must fit after every order of changes; a test sees one order.", "anchors": ["src/modules/videoResampler/VideoResampler.cpp:30-280"]}
{"id": "C71", "title": "What the video decoder delivers", "statement": "For every sequence of coded frames, each frame is answered with the first picture the decoder of the frame's own codec finds in it (reached without error and with bytes left), or with none if there is no such picture or no decoder for the codec (H.264, H.265, VP8 and MJPEG have one). The picture delivered has the size and format reported by the decoder, presentation time, decode time equal to it, origin time and sequence number from the coded frame. A decoding error costs that frame only. This holds as long as decoders can be set up, take bytes, and bring pictures that fit the destination, and no two frames in a row are of the same codec without decoder. (Recorded: the second frame of a refused codec is handed to the decoder of the codec before, or to none on a fresh filter; after a decoder could not be set up the next frame of that codec is handed to a missing, freed or unopened context, and a frame of another codec frees it twice; a decoder that takes no bytes and brings no picture keeps the filter looping for good; a picture is copied whatever its size and overruns the destination exactly if it is larger; formats without a name are delivered as no format; pictures after the first in a frame are dropped.)", "quantifier": "all sequences of frames, codecs, sizes, library answers and destination rooms", "why_tests_cant": "The decoder context depends on the whole history of codecs and failures; tests cannot force the library's failures in every order.", "anchors": ["src/modules/videoDecoder/VideoDecoderLibav.cpp:30-51", "src/modules/videoDecoder/VideoDecoderLibav.cpp:70-226", "src/modules/videoDecoder/VideoDecoderLibav.cpp:244-274"]}
{"id": "C72", "title": "What the audio decoder delivers", "statement": "An audio decoder that is configured any number of times and then given the frames of one stream (one codec, channel count and rate, with a decoder: PCMU, OPUS, AAC, MP3) answers every frame with the samples of the first frame the stream's own decoder finds in it, converted from their format, channels and rate to the output configured last (a parameter not given is kept), as many as fit the destination, with length, presentation time, origin time and sequence number set; an error delivers nothing. This holds for destinations made for that output and libraries that set up, take bytes and decode what was announced. (Recorded: a coded frame in which no frame is found is delivered all the same, with the samples the destination happened to hold; once the resampling context is initialised its parameters are never replaced, whatever is configured and whatever streams come, though the configuration is answered with success and the lengths become those of the new format, so that a stream turning from stereo to mono is read out of bounds; the second frame of a refused codec is decoded by the decoder of the stream before or by none; after a decoder could not be set up the next frame is handed to a missing, freed or unopened context; a decoder that takes no bytes and decodes nothing loops for good; a decoded format the code does not know meets no context; an output configured after the queue was made overruns it.)", "quantifier": "all histories of configurations and frames, all formats, sizes, library answers and uninitialised values", "why_tests_cant": "The contexts kept between frames depend on the whole history; tests cannot force library failures and codec changes in every order.", "anchors": ["src/modules/audioDecoder/AudioDecoderLibav.cpp:50-454"]}
{"id": "C73", "title": "What the audio encoder accepts and delivers", "statement": "After any history a configuration of the audio encoder is accepted exactly if no codec was named before, it names PCM, PCMU, OPUS, AAC or MP3, and the library can encode it as configured with a frame size above zero; from the moment a codec is named nothing of the configuration changes any more. A reader is accepted exactly if its queue is an audio ring and the encoder has samples per frame, which the ring is told. Every planar frame of one ring is then answered with a coded frame whose samples were converted from the ring's format to the encoder's configured channels and rate, times and sequence number kept, or with nothing if the library failed; when the rates agree each coded frame holds exactly the samples of its raw frame. (Recorded: a first configuration that fails bars every later one; encoders without frame size, as those of PCM and PCMU, can never be used; if the encoder's rate is below the input's, samples of earlier frames are encoded again, and if it is above, the encoder falls behind without bound; the resampling context is never given other parameters, so that another ring is misread; if its parameters cannot be set the next frame is converted without one; interleaved frames are handed over wrongly; a ring told more samples than a tenth of a second is overrun.)", "quantifier": "all histories of configurations, readers and frames, all rates, frame sizes and library answers", "why_tests_cant": "Needs library failures at every call, and drift shows only over arbitrarily many frames.", "anchors": ["src/modules/audioEncoder/AudioEncoderLibav.cpp:32-454", "src/AudioCircularBuffer.cpp:256-322"]}
{"id": "C74", "title": "Requests are read one by one", "statement": "Reading requests is never undefined, whatever texts arrive and in whatever number. As long as every request so far could be read by itself, each request is read as if it were the only one. (Recorded: the parser keeps what it has not used of a refused request: a good request that had one stray character before it is read together with the next request and comes first; after a request with a member whose name is no string the parser is out of step for good; a request ending behind a value is read without its last value; one typing error makes the following good requests fail and a later one be answered with what an earlier one asked.)", "quantifier": "all texts, all sequences of requests", "why_tests_cant": "The state kept by the parser depends on all earlier texts; a test sends a few well-formed ones.", "anchors": ["src/Jzon.cpp:931-1237", "src/Controller.cpp:138-157"]}
{"id": "C75", "title": "A request cut short is carried out as a whole or not at all", "statement": "If only a beginning of a request arrives and it can be read, then the array under any name is either not there or exactly that of the whole request; so the server carries out all events of the request as if it had arrived completely, or none of them and reports a failure.", "quantifier": "all requests, all places to cut, all names, all states", "why_tests_cant": "Every prefix of every document would have to be tried.", "anchors": ["src/Jzon.cpp:931-1237", "src/Controller.cpp:138-177"]}
{"id": "C76", "title": "Every control event is answered by what became of it", "statement": "Every event of a control request is answered as its content demands: one with a numeric filterId is delivered to the filter of that id, with its delay, or fails if there is none; getState changes nothing and its report, read by a client, gives exactly the registered filter ids and paths with their ends and intermediate filters, in ascending order; the others are carried out on the registries, success being reported exactly if they were and a failure leaving everything as it was; anything else fails. The results of a request come one for each event, in the order of the events, each event going on from the one before. With registries in order and no stop while there are several paths nothing is undefined. Numbers printed are read back unchanged. Every connection is answered once or left open, and as long as all texts could be read by themselves it is answered exactly if its text can. (Recorded: an event of the wrong shape, such as a number, parameters that are no object or a textual path id, ends the process wherever it stands in the request; all results have the same name, so a client that asks for it sees the first only; a path that cannot be connected is reported as failed but stays registered; a failed stop may have removed paths; success for a filter event means delivered, and an action that is no value ends the process later; fractions, bare signs and numbers too large are taken for other numbers; a connection whose text cannot be read is never closed; a request refused for one stray character is carried out when the next one arrives, whose sender gets its results while that sender's own events are not carried out.)", "quantifier": "all registries, all documents, all requests and sessions, all answers of filters", "why_tests_cant": "All documents, registries and filter answers; the order and naming of results and the fate of refused requests show only over whole sessions.", "anchors": ["src/Controller.cpp:138-196", "src/PipelineManager.cpp:484-729", "src/Event.cpp:34-60", "tests/liveMediaStreamer.cpp:51-62"]}
{"id": "C77", "title": "The delay and loss told of a path", "statement": "A reader's average delay is that of the last window of frames that ended, rounded down, and zero before: windows are cut from the frames whose time differs from that of the frame before, each ending before the first frame at least the window length later than its start, that frame starting the next one; with no delay negative it lies between the smallest and the largest of the window. The report of a path tells it for the destination's reader, and as lost blocks the sum over that reader and the readers of all intermediate filters. (Recorded: frames from the future give an enormous average; frames of negative time are not counted; averages above 35 minutes and sums of lost blocks above 2^31-1 are told as other numbers.)", "quantifier": "all sequences of frames and ages, all window lengths, all paths", "why_tests_cant": "The windows depend on all frame times so far; clocks cannot be forced in a test.", "anchors": ["src/IOInterface.cpp:32-36,122-169", "src/Frame.cpp:52-59", "src/PipelineManager.cpp:512-524", "src/Filter.cpp:75-95"]}
{"id": "C78", "title": "How the filters read their events", "statement": "An event sent to a filter is done with as a table of parameters says, for every action of every filter: parameters are found by name whatever their order, further ones are not looked at, an event lacking a needed parameter or with one of those types that are checked is refused and nothing is called, and otherwise the filter is called with exactly the values given, a parameter left out standing for the present setting. If every parameter there has its JSON type and the needed ones are there, the process never ends: the event is carried out or refused because its values do not fit together. An unknown action does nothing. A new session is refused if its id is in use, and else described by all its entries or refused for the first with an unknown codec. Delays are ignored by receivers, demultiplexers, capture devices, transmitters and DASH filters, kept by all others. (Recorded: a parameter of the wrong type ends the process in many events and is passed over in others, which then report success; null is taken for zero, false and the text null; the mixer takes a width only with a height; without parameters removeSession, the configure of a capture device and gopReferenceTime follow a null pointer.)", "quantifier": "all filters, actions, parameter nodes and members", "why_tests_cant": "The parameters range over all JSON values in all combinations; a wrong one may end the process.", "anchors": ["src/Filter.cpp:422-467,810-862", "src/Event.cpp:51-69", "src/modules/audioEncoder/AudioEncoderLibav.cpp:421-459", "src/modules/audioDecoder/AudioDecoderLibav.cpp:331-373", "src/modules/audioMixer/AudioMixer.cpp:311-396,457-473", "src/modules/videoMixer/VideoMixer.cpp:272-327", "src/modules/videoEncoder/VideoEncoderX264or5.cpp:170-257", "src/modules/videoResampler/VideoResampler.cpp:183-227", "src/modules/videoSplitter/VideoSplitter.cpp:215-265", "src/modules/receiver/SourceManager.cpp:274-361", "src/modules/headDemuxer/HeadDemuxerLibav.cpp:382-402", "src/modules/V4LCapture/V4LCapture.cpp:552-578", "src/modules/transmitter/SinkManager.cpp:521-641", "src/modules/dasher/Dasher.cpp:416-497"]}
{"id": "C79", "title": "Calls of the filters' C++ interface arrive as made", "statement": "A call of configure, configChannel, configCrop or one of the calls of the audio mixer on a filter is carried out by that filter as that action with exactly the arguments of the call, for all numbers and truth values and all texts without backslash; the reference time a DASH filter asks of its encoders, and the one an encoder reports, is the one an encoder takes, for all times below 2^63 microseconds and negative ones. (Recorded: a text with a backslash arrives changed; a reference time that does not begin with a number ends the process, one that is not a text is refused.)", "quantifier": "all calls and all arguments of their types", "why_tests_cant": "Arguments pass through printing and reading of numbers; all of them cannot be tried.", "anchors": ["src/modules/audioEncoder/AudioEncoderLibav.cpp:461-474", "src/modules/audioDecoder/AudioDecoderLibav.cpp:356-368", "src/modules/videoMixer/VideoMixer.cpp:353-384", "src/modules/videoEncoder/VideoEncoderX264or5.cpp:242-250,274-295", "src/modules/videoSplitter/VideoSplitter.cpp:73-99", "src/modules/videoResampler/VideoResampler.cpp:282-295", "src/modules/audioMixer/AudioMixer.cpp:398-455", "src/modules/dasher/Dasher.cpp:297-308", "src/Jzon.cpp:355-395,573-580"]}
{"id": "C80", "title": "What the DASH manifest says and which files it leads to", "statement": "After any calls, the manifest document, read by element and attribute names as a player does, says what is known from the calls and nothing else: kind dynamic, the start time of the first writing, update period, depth and minimum buffer of the last configuration, and per adaptation set its kind, time scale, templates, the last segments listed up to the bound with their times, and exactly the representations described and not removed, with the values last given; sets and representations in ascending order, each once. After any history of a DASH filter with one configuration whose base name has no dollar sign, whenever a segment is listed the manifest lists it last in its set, and for every representation described there the address a player makes of the template is the name of a file written just before; once a stream has closed a segment the next manifest describes it as it is, and the address made of its initialization template is the name of its initial segment. Files of different representation, time, kind or path never share a name. (Recorded: a dollar sign in the base name makes the template unusable or leads elsewhere; a representation that joins late is described for older segments that it has no files of; a removed representation still counts in the maximum width and height; a call for a set of the other kind changes only templates; representations are in textual order; the depth is cut to 32 bits; before the first configuration no durations are announced.)", "quantifier": "all sequences of calls and of events of the streams, all numbers and texts", "why_tests_cant": "Histories and texts are unbounded; a test sees a few manifests only.", "anchors": ["src/modules/dasher/MpdManager.cpp:29-376,378-531", "src/modules/dasher/MpdManager.hh:29-50", "src/modules/dasher/Dasher.cpp:53-85,210-296,310-396,499-600", "src/modules/dasher/Dasher.hh:39-47"]}
{"id": "C81", "title": "What filters report of their settings is what they were told, and can be sent back", "statement": "After an accepted configure or channel command the state report of the filter gives every setting named in the event as asked for (as far as limits and the printed digits allow) and every other setting as before: video encoder, audio decoder, audio encoder, gains of the audio mixer (set, muted, soloed), channels of the video mixer, crops of the splitter, and folder, name, manifest, duration and limits of the DASH filter; a refused one leaves the video encoder's report as it was. The reported entry sent back as parameters of configure (item by item for channels and crops) to another filter of the same kind is accepted and makes it report the same, for every filter reached from a new one by any events: no setting reached is one that would be refused. (Recorded: a video encoder without frame rate reports 25; numbers asked for as negative are reported; a decoder or audio encoder whose configuration failed reports it nevertheless; the audio bit rate and the mixer's frame time are not reported; gains come back only as printed; an unconfigured crop is refused when sent back; the splitter's whole entry resets the frame time, which has to be sent under its other name; number of segments and buffer time of the DASH filter are reported under names configure does not take; before its first configuration the DASH filter reports an uninitialised duration.)", "quantifier": "all settings, all sequences of events, all reported numbers and texts without backslash", "why_tests_cant": "Settings and event sequences are unbounded; a test sends a few values back only.", "anchors": ["src/modules/videoEncoder/VideoEncoderX264or5.cpp:196-250,262-289", "src/modules/audioDecoder/AudioDecoderLibav.cpp:265-373", "src/modules/audioEncoder/AudioEncoderLibav.cpp:369-459", "src/modules/audioMixer/AudioMixer.cpp:315-473", "src/modules/videoMixer/VideoMixer.cpp:162-207,272-351", "src/modules/videoSplitter/VideoSplitter.cpp:168-265", "src/modules/dasher/Dasher.cpp:53-85,416-497", "src/modules/dasher/MpdManager.cpp:45-63", "src/modules/videoResampler/VideoResampler.cpp:224-232"]}
{"id": "C82", "title": "A transmitted stream is announced as what it is", "statement": "Over plain RTP and over RTSP a stream is announced alike, but for the dynamic number: the numbers RFC 3551 has for linear sound of 44100 Hz with one or two channels, mu-law of 8000 Hz mono, MPEG audio and transport streams are used exactly for these streams, with the clock and channels the RFC has for them; every other stream gets the number offered; the clock is 90 kHz for video and MPEG audio and the sampling rate for other audio. A connection takes exactly the streams there is an announcement for. A receiver of this program that reads the announcement gets the same kind, codec, rate and channels, or does not take the stream: it takes H.264, H.265, VP8, opus, AAC, pcmu, pcm other than 16 bit, and g711 of 8000 Hz mono (pcmu of 8000 Hz mono is then called g711). A stream sent by plain RTP and made known to a receiver by a request (H264, opus, pcm, pcmu, MPEG4-GENERIC, mp3) is taken for what it is, except mp3, and both sides use the same number unless the sender uses one of the RFC's; no request makes any other codec known. The format line of AAC fits its buffer and reads back. (Recorded: describing an AAC stream over RTSP is undefined behaviour whatever frames have come, the line reading an array of two characters that is either uninitialised or overrun - with room for the text it carries the configuration of the last frame with a header; 16 bit sound, MP3 and transport streams are announced rightly but no receiver of this program takes them; the format of samples is not announced; A-law is announced as mu-law; pcmu and 16 bit pcm that have RFC numbers do not reach a receiver told of them by a request; the bandwidth announced for uncompressed sound is an eighth of what it needs.)", "quantifier": "all codecs, rates, channel numbers, sample formats, dynamic numbers, requests and AAC frames", "why_tests_cant": "Rates, channels and formats combine without bound and sender and receiver are never tested against each other.", "anchors": ["src/modules/transmitter/Connection.cpp:92-222,439-522,620-697", "src/modules/transmitter/AudioQueueServerMediaSubsession.cpp:54-105", "src/modules/transmitter/ADTSQueueServerMediaSubsession.cpp:67-111", "src/modules/transmitter/CustomMPEG4GenericRTPSink.cpp:121-160", "src/modules/receiver/SourceManager.cpp:50-101", "src/StreamInfo.hh:82-138"]}
{"id": "C83", "title": "A received stream is sent on unchanged", "statement": "A stream received from the network and connected through a frame queue to a transmitter: whatever rounds the two filters make in whatever order, with whatever packets and requests, what the packetiser is given are units that came from the network, in order, none twice and none made up, each with its time and its bytes (for H.264 and H.265 without the start code put in front on the way) as far as the frames of the queue and the packetiser's buffer have room, and it is told how much of a unit its buffer had no room for; units neither given nor waiting in the queue are exactly as many as the queue has counted as lost, so that with none counted everything received is given in order or waits. A unit that fits the frames and the buffer arrives byte for byte. The receiver's rounds always end; with a request outstanding the transmitter's round ends in the step in which its trigger fires and gives the oldest unit waiting. (Recorded: assumed is that the first fetch after connecting is over (C48), that the packetiser does not stop and, for H.264 and H.265, asks again only after the round - a packetiser that stops leaves one unit unsent and uncounted, one that asks again early is given the unit twice; what exceeds the frames of the queue is cut without the packetiser being told.)", "quantifier": "all packets, queue sizes, buffer sizes, and interleavings of rounds and of what the network library does in them", "why_tests_cant": "Filters are tested alone; the composition is over unbounded interleavings of two threads' rounds.", "anchors": ["src/modules/receiver/QueueSink.cpp:46-109", "src/modules/receiver/SourceManager.cpp:108-160,230-260", "src/modules/receiver/H264VideoSdpParser.cpp:28-90", "src/modules/transmitter/SinkManager.cpp:133-167", "src/modules/transmitter/QueueSource.cpp:18-101", "src/modules/transmitter/H264or5QueueSource.cpp:154-191", "src/AVFramedQueue.cpp:29-120"]}
{"id": "C84", "title": "A video sent to an UltraGrid receiver", "statement": "H.264 units handed to an UltraGrid transmission: nothing is sent until an access unit (units up to a delimiter) has ended by which a parameter set has told the size; every access unit behind that one is sent, in order, in packets of its own that fit the packet size, whose pieces make up its bytes in any order of arrival, with consecutive numbers from 0 modulo 2^22, its length, the size and rate said by the latest parameter set up to its end, and the time of its delimiter; the marker is on the last packet of each and no other. Access units without units are left out and not numbered. (Recorded: the access unit that brings the first parameter set is itself never sent, so that a receiver gets no parameter set and no picture it can start from before the stream repeats them; a stream without delimiters or without parameter sets is never sent; rates are whole numbers, rounded down, and those up to 5 are announced as divided by 1.001; the rate of a stream that does not say one is whatever memory held.)", "quantifier": "all streams of access units that fit the buffers, all packet sizes above the header and all units in them", "why_tests_cant": "What is sent depends on the whole history of the stream and on every access unit's length against the packet size.", "anchors": ["src/modules/transmitter/UltraGridVideoRTPSink.cpp:92-182,192-349,351-364", "src/modules/transmitter/H264VideoStreamSampler.cpp:33-173", "src/modules/transmitter/H264VideoStreamSampler.hh:58-66"]}
{"id": "C85", "title": "A recorded video stream plays back", "statement": "Feed the H.264 or H.265 units of any well-formed stream of pictures to a video input of the DASH filter whose buffers do not overflow and whose initialisation file can be written. Play the segment files one after the other: they hold exactly the slices of the pictures from the first key picture on, one sample for each picture, in order, each once, key pictures marked, but for the newest pictures that are still collected and the last one received; each segment starts with a key picture and at the time of that picture; and when every picture is decoded at the time it is shown, a player shows each at its own time since the origin, in ticks of 1/12800 s rounded down. Every initialisation file holds a decoder configuration made of parameter sets the stream has brought, the size of a picture and the time scale; when the parameter sets come by the first key picture, and that picture has a size, there is such a file at every moment at which there is a segment (otherwise there may be segments without it). The recording succeeds whenever pictures are decoded when they are shown, come at least some gap and at most the segment duration apart, key pictures come regularly, and as many pictures as come in one segment duration plus one key interval fit the buffers. (Recorded: when pictures are shown later than they are decoded, a player shows all pictures of a segment late by the distance between the two times of its first picture, because the time the first is shown is written as the time it is decoded; a stream without decode times, as every stream received from the network is, whose pictures follow each other within 0.499 of the segment duration is never written at all and runs over the buffers after 65536 pictures or 10 megabytes; if the initialisation file cannot be written, the picture it was to be written with is left out, and with a key picture all up to the next key picture are lost.)", "quantifier": "all streams of well-formed pictures, times, segment durations and buffer sizes", "why_tests_cant": "It joins four stages each of which keeps state over the whole stream; a test plays one file of one stream.", "anchors": ["src/modules/dasher/Dasher.cpp:87-143,173-243,614-683", "src/modules/dasher/DashVideoSegmenter.cpp:28-193", "src/modules/dasher/DashVideoSegmenterAVC.cpp:66-162", "src/modules/dasher/DashVideoSegmenterHEVC.cpp:68-212", "src/modules/dasher/i2libdash.c:36-212,299-462"]}
{"id": "C86", "title": "A recorded audio stream plays back", "statement": "Feed any frames of one rate to an audio input of the DASH filter whose buffers do not overflow. Play the segment files one after the other: they hold exactly the coded sound of the frames that have a valid AAC header, something behind it and samples, in order, each once, one sample for each frame and as long as the frame, but for the newest frames that are still collected and the frames that came while the initialisation file could not be written. Each segment starts at the time of its first frame, in ticks of the rate since the origin rounded towards it. Without video a segment is complete with the first frame that makes it as long as the segment duration; with video each segment holds what came between two cuts of the video. In a segment whose frames follow each other without gap every frame is heard at its own time but for one tick. The recording succeeds whenever the frames collected for one segment fit the buffers: at most 65536 frames and 10485760 bytes with the boxes. With every accepted frame, and only then, the initialisation file is written; it holds rate, channels, bits, frame length, and a decoder configuration with the object type and rate index of the header of that frame, and the channels of the header exactly if they are fewer than four. (Recorded: a gap inside a segment is closed up, so that what follows is heard early until the next segment; times start again after 2^32 ticks, a day and fifty minutes at 48 kHz; while the initialisation file cannot be written all sound is lost; the initialisation file is written again with every frame.)", "quantifier": "all streams of one rate, times, segment durations, cuts and buffer sizes", "why_tests_cant": "It joins four stages each of which keeps state over the whole stream; a test plays one file of one stream.", "anchors": ["src/modules/dasher/Dasher.cpp:87-143,173-243,351-377,614-683", "src/modules/dasher/DashAudioSegmenter.cpp:25-225", "src/modules/dasher/i2libdash.c:38-42,168-185,279-297,352-407,464-506", "src/modules/dasher/i2libisoff.c:174-207"]}
{"id": "C87", "title": "A player following the manifest plays the recording, at every moment", "statement": "Start the DASH filter with at most one new video and one new audio input and feed it any pictures and frames of one rate, in any interleaving, such that its buffers do not overflow and the base name has no dollar sign. Stop at any moment, even between two things done to the folder. A player that then reads the manifest, makes the addresses it is told to make (time, representation, templates) and reads the files behind them finds a window of the recording: for the video the last max(2, configured) of a beginning of the parts into which all pictures from the first key picture on are cut, in order, each in a file that exists and plays exactly its pictures at the listed time; the same of the frames that can be heard; at the address of the initialisation of the audio, as soon as there is a segment, a file that describes one of the frames, and at that of the video a file that describes parameter sets of the stream, missing only before the first segment if the stream brings its parameter sets by the first key picture. After every whole round these are the newest parts, and all that is missing is still collected. Nothing but the buffers of the segmenters can stop a run. The times of key pictures are at least 79 microseconds apart and not before the origin; frames are at least a tick apart and less than 2^32 ticks after the origin. (Recorded: the file of a segment that starts at time 0 is never removed.)", "quantifier": "all streams, interleavings of the two inputs, window sizes, folders and names, and all moments between two things done to the folder", "why_tests_cant": "It is a statement about every intermediate state of the folder over the whole of a stream; a test looks at the folder at the end of one.", "anchors": ["src/modules/dasher/Dasher.cpp:53-143,176-414,499-548,712-724", "src/modules/dasher/MpdManager.cpp:37-252", "src/modules/dasher/DashVideoSegmenter.cpp", "src/modules/dasher/DashAudioSegmenter.cpp"]}
{"id": "C88", "title": "Frames flow along a path in order, are all accounted for, and none gets stuck", "statement": "Connect a periodic source, any number of one-to-one filters and a sink in a row and let any number of workers run them in any order. Nothing undefined happens. Between any two neighbours the frames processed by the second, followed by those still waiting for it, are frames committed by the first, in order and none twice, and those missing are exactly the ones the queue counts as lost; each filter has turned what it has processed into what it has committed as if fed by hand. With filters that turn every frame into one, what arrives at the end is a part of what the source made, in order, each frame worked on once by each filter. As long as a frame waits before a filter, that filter is queued, or in the hands of a worker, or about to be notified, so that when nobody works and only the source is queued, all queues are empty; the source itself stays scheduled. A worker that finds a frame processes exactly one whatever the others do meanwhile, and after the source falls silent a filter processes at most the frames that were waiting before it. Queues have at least three buffers. (Recorded: with two buffers a processed frame is also counted as lost.)", "quantifier": "all paths, filters, queue sizes from three buffers on, numbers of workers and interleavings of their calls on queues and pool", "why_tests_cant": "It is about every interleaving of several threads over queues and pool together; a test sees one schedule.", "anchors": ["src/Filter.cpp:173-250,477-571,631-658,750-764,787-790", "src/IOInterface.cpp:70-141,319-340", "src/AVFramedQueue.cpp:29-118", "src/WorkersPool.cpp:33-186"]}
{"id": "C89", "title": "Frames flow in order through any network of filters, are all accounted for, and none gets stuck", "statement": "Connect filters with any numbers of readers and writers, of their own or shared, in any way (mixers, splitters, several sources and sinks, cycles) and let any number of workers run them in any order; let every filter choose freely which of its readers to ask, whether to process or pass over what it got, and which frames to commit. Nothing undefined happens. In every queue, for each of the filters that share its reader, the frames the filter has processed or passed over, followed by those still waiting, are frames the queue's writer has committed, in order and none twice, and those missing are exactly the ones the queue counts as lost. Filters that share a reader get the same frames, none more than one frame ahead of another. A filter is never given a frame of a queue it does not read, and nothing is committed to a queue nobody writes to. As long as a frame waits before a registered filter, that filter is queued, or in the hands of a worker, or about to be notified, so that when nobody works and only sources are queued, all queues are empty. Periodic filters stay scheduled. When a worker asks a reader whose queue is not empty (the filter having the reader for itself, or all of the queue still to come), a frame of that queue has been processed or passed over by the time the worker commits its results. Queues have at least three buffers.", "quantifier": "all networks, behaviours of filters, queue sizes from three buffers on, numbers of workers and interleavings of their calls on queues and pool", "why_tests_cant": "It is about every network and every interleaving of several threads over queues and pool together; a test sees one network and one schedule.", "anchors": ["src/Filter.cpp:173-250,321-364,477-734", "src/IOInterface.cpp:70-141,319-340", "src/AVFramedQueue.cpp:29-118", "src/WorkersPool.cpp:33-186"]}
{"id": "C90", "title": "The calls that connect filters make the network the frames flow through, and calls that disconnect cut it", "statement": "After any calls that connect filters, share readers, disconnect either end, and any rounds of the filters, the connections form a network of the kind of C89: every connected queue has exactly one writing filter and at least one reading filter, the filters notified of a frame are exactly those that read the queue, and no filter is given a queue it does not read. When connect reports success, whatever the workers do from then on, the frames committed by the writing filter on the new queue are given to the reading filter in order, none twice, the missing ones counted as lost, none is given to any other filter, and none is left behind. When sharing a reader reports success, both filters are given the same frames of that queue. After a reader is disconnected its filter is given no more frames of that queue, while filters that share it still are; after a writer is disconnected no frame is committed to its queue and nobody is given one. (Recorded: a filter is not given a reader it holds already under another id; see C47. Calls that change connections while rounds are under way are outside.)", "quantifier": "all sequences of calls and rounds, all networks they make, all behaviours of filters and interleavings of the workers", "why_tests_cant": "It joins every history of calls to every schedule of the workers; a test fixes one network and one schedule.", "anchors": ["src/Filter.cpp:123-139,252-420,620-734", "src/IOInterface.cpp:38-68,178-221,271-297", "src/FrameQueue.hh:61-213", "src/WorkersPool.cpp:33-186"]}
{"id": "C91", "title": "Which schedules of connecting, disconnecting and rounds are safe", "statement": "A control thread connects two filters and disconnects either end while workers run rounds of both, interleaved at every access to the shared queue, flag and reader. If the reading filter starts no round while connect looks at an old reader or attaches the new one, a reader is disconnected only while its filter is not in a round and the writing filter is not asking its writers for frames, and a writer only while its filter is not in a round, then nothing undefined happens in any interleaving; when connect reports success the filters are connected by a new queue and stay so until a disconnecting call returns, and when it refuses nothing changes; disconnecting never fails and leaves the other end alone; rounds of connected filters get frames; a queue is deleted exactly once neither filter has an end of it, which takes one more round of the filter left with an end, unless connect gave it up because the reading filter still had a reader. (Recorded: the code does not enforce any of these conditions, and each is needed: connect reports success with nothing connected, or reads a null pointer, or uses a deleted queue, when the reading filter has a round inside it; disconnecting a reader while the writing filter asks for a frame makes it use a null frame; disconnecting an end while its filter works on a frame lets the other filter's round delete that frame; replacing a reader during a round makes the end of the round use a null frame.)", "quantifier": "all interleavings of the three threads and all sequences of calls and rounds", "why_tests_cant": "Windows of a few instructions between threads are not hit by tests on purpose, and their absence cannot be tested.", "anchors": ["src/Filter.cpp:97-139,173-238,321-420,550-675", "src/IOInterface.cpp:38-107,121-141,178-249,271-328", "src/FrameQueue.hh:146-152"]}
{"id": "C92", "title": "Frames flow in order while connections are made and cut", "statement": "Filters are registered, connected, made to share readers, and disconnected while the others run on any number of workers in any interleaving, as long as no filter concerned by a change is at work at that moment and none leaves a shared reader as the only one the announced frame still waits for. The calls of the filters do to the network just these changes (none given the same reader twice), and refused calls and rounds none. Then nothing undefined happens (no queue is used after it was deleted); what a filter has processed or passed over since it began to read a queue, followed by what is still to come, are frames committed since the queue was made, in order, none twice, and the only others are those the queue counts as lost and, for a filter that began to share later, those gone by before; filters that share a reader see the same frames up to one; frames only go along connections as they are at the time; a registered filter with a frame before it is scheduled, at work or about to be notified; sources stay scheduled; when all is at rest every queue before a registered filter is empty. (Recorded: beginning to share a reader wakes nobody, so a frame waiting then is not taken by the newcomer, and stays in the queue, until another frame is committed; a filter that leaves a shared reader as the only one the announced frame waits for stops the frames for the others.)", "quantifier": "all sequences of steps of any number of workers, filters, queues and changes", "why_tests_cant": "Changes to a running pipeline can fall between any two steps of any workers; tests exercise a few.", "anchors": ["src/Filter.cpp:173-284,321-474,516-618", "src/IOInterface.cpp:38-141,178-313", "src/WorkersPool.cpp:36-276", "src/FrameQueue.hh:61-213"]}
{"id": "C93", "title": "JSON trees are independent values", "statement": "Whatever sequence of making, copying, adding, removing, clearing, setting, reading and destroying of JSON values, objects and arrays a program performs, reaching nodes by Get along any names and indices, nothing undefined happens and the program gets exactly what it would get if every variable held a tree of its own: what is copied or added is a copy that later changes to the original do not show in (and the other way round), also when a node is added to itself; Get gives the first child of a name, and an exception when there is none or the node is of another kind; every node in memory belongs to exactly one variable and none is left when the variables are gone; a reference got before still leads to the same node after anything that takes no node away. (Recorded: Object and Array have no assignment of their own, so assigning one to another of the same kind shares the children, which are then deleted twice; a name added twice is still there after one Remove.)", "quantifier": "all programs over any number of variables, trees of any size and depth", "why_tests_cant": "Aliasing and lifetimes show only in certain orders of copying, changing and destroying; a leak or a use after deletion need not be visible in any test.", "anchors": ["src/Jzon.cpp:152-255,338-453,538-772", "src/Jzon.h:69-325", "src/Event.cpp:30-60"]}
{"id": "C94", "title": "Filters can be made and removed while frames flow", "statement": "Starting from nothing, filters are made, given to the pool, connected, made to share readers, disconnected, removed from the pool and deleted, and new ones made under the same ids, while the others run on any number of workers in any interleaving; connections change as in C92, and no filter is deleted that is still registered, queued, in the hands of a worker or connected. Then nothing undefined happens (no filter and no queue is used after it was deleted); for every queue there is and each filter that reads it, what it has processed or passed over since it began to read, followed by what is still to come, are frames committed since the queue was made, in order, none twice, and the only others are those the queue counts as lost or gone by before; a registered filter with a frame before it is scheduled, at work or about to be notified; periodic filters stay scheduled as long as they are registered; when all is at rest every queue before a registered filter is empty; a deleted filter is not registered, queued, at work or connected; and once the pool has nothing to do with a filter that stays so until it is added again. (Recorded: a periodic filter nobody is at work on is always queued, and removing it does not change that, so that deleting it then, as removing a filter or a path does, makes the next worker use a deleted filter; a filter removed while at work may be deleted before its worker has asked it for pending jobs.)", "quantifier": "all histories of filters, connections and pool calls, any number of workers, filters and queues, all interleavings", "why_tests_cant": "Which filter goes at which moment of whose work is a matter of schedules a test neither controls nor enumerates.", "anchors": ["src/WorkersPool.cpp:81-195", "src/PipelineManager.cpp:118-210,391-482", "src/Filter.cpp:32-50,240-284,321-364,415-474"]}
{"id": "C95", "title": "A path is connected as a whole and nobody else notices", "statement": "Paths are connected and deleted in any order, with filters doing rounds in between; each path, as creating a path demands, has distinct filters of its own, none of which is its origin or destination, and a path without filters of its own does not lead to where it comes from; no filter refuses the configuration of a reader. Then connecting a path and deleting one always comes to an end without anything undefined; when connecting succeeds, frames have a way from the named writer of the origin through every filter of the path in order to the named reader of the destination; whether it succeeds or not, no existing connection is cut and no others are made than between filters that follow each other on the path; a path can be connected when its filters are unconnected, its destination has room and its origin's writer is free or already connected, not to the path's first filter, whose reader is then shared; no filter ever gets a reader it already holds; deleting a path leaves its filters without readers and writers, takes the destination's reader away, and keeps all other connections exactly; so a path that comes and goes leaves every connection of others as it was; a filter's round changes nothing about who is connected to whom; and deletion fails only when the destination refuses to delete the reader, which is gone all the same. (Recorded: a path that fails on the way stays connected as far as it got; connecting a path from a filter directly to itself never returns, though creating it is allowed; deleting a path deletes its filters even if another path begins or ends at one of them, and that path is cut.)", "quantifier": "all histories of connecting and deleting paths and of rounds, all paths, ids, capacities and hook answers", "why_tests_cant": "Paths interact through shared writers and readers in every order of making and deleting; tests try a few pipelines.", "anchors": ["src/PipelineManager.cpp:231-373,416-482", "src/Filter.cpp:39-61,252-284,321-420", "src/IOInterface.cpp:38-68,178-212,266-297"]}
{"id": "C96", "title": "Created paths keep leading to their destination until they are removed", "statement": "Paths are created and removed on request, in any order, with filters doing rounds in between; the own filters of a path are on no other path, no two paths end in the same reader, and filters refuse neither the configuration nor the deletion of readers. Then every request comes to an end without anything undefined; a path whose creation succeeded has, as long as it is in the registry, a connection from its origin's writer through all its filters in order to its destination's reader, whatever other paths come and go, also those that share its writer, its origin or its destination; every connection there is belongs to a path in the registry, so that with the last path gone nothing is connected; and removing a path takes exactly that path out of the registry. (Recorded: a path that could not be connected because its reader is taken stays in the registry; removing it then takes that reader away and cuts the path that was connected.)", "quantifier": "all histories of creating and removing paths and of rounds, all paths, ids and capacities", "why_tests_cant": "Which paths share what, and in which order they come and go, has no bound.", "anchors": ["src/PipelineManager.cpp:231-373,375-389,416-482,604-612", "src/Path.cpp:50-64", "src/Filter.cpp:39-61,252-284,321-420"]}
{"id": "C97", "title": "The streams of an opened file as the rest of the pipeline sees them", "statement": "A demultiplexer is given files or addresses, asked for its streams and connected, in any order. The streams it reports are those of the one given last, numbered in order, none if it could not be opened; a connection of a stream succeeds exactly when its codec is one that can be passed on (H.264, H.265, VP8, Opus, AAC, MP3, G.711, and linear sound of a known sample format), and is otherwise refused; behind the connection filters read the description of the stream connected; sound is described with the rate and the channels of the file. (Recorded: connecting a stream number that does not exist follows a null pointer, and connecting raw video reads a pixel format that was never set; as soon as another address is given, even one that cannot be opened, every description read through an earlier connection is freed memory; G.711 is always told as 8000 samples per second in one channel; linear unsigned sound is told as PCMU, the codec mu-law is received as.)", "quantifier": "all histories of addresses given, connections and reports, all files", "why_tests_cant": "The histories and the lists of streams have no bound, and codec names are arbitrary strings.", "anchors": ["src/modules/headDemuxer/HeadDemuxerLibav.cpp:28-88,229-380", "src/StreamInfo.hh:33-138", "src/AVFramedQueue.cpp:144-254", "src/Utils.cpp:140-182"]}
{"id": "C98", "title": "What a capture device says it delivers", "statement": "Whatever formats are asked for and whatever formats the driver settles on, one configuration after another: the description that connected filters read fits the pictures the device delivers exactly if these are compressed, or if all formats settled on before were uncompressed too; a device whose description fits can be connected exactly if it delivers H.264 or one of YUYV, YUV420 and RGB24; a format is asked for by one of six names, and any other name asks for YUYV. (Recorded: a device that once delivered H.264 and now delivers uncompressed pictures, which every second configuration of a capturing device asks for, is still announced and connected as H.264; YUV422 and motion JPEG can be captured but not connected; the name reported for YUV420 is not taken for it when given back, but for YUYV.)", "quantifier": "all histories of formats the driver settles on, all names asked for", "why_tests_cant": "Histories have no bound and names are arbitrary strings.", "anchors": ["src/modules/V4LCapture/V4LCapture.cpp:40-54,176-183,372-419,534-550,590-659", "src/AVFramedQueue.cpp:144-176"]}

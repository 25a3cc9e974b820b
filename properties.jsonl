{"id": "C01", "title": "Recording is gap-free and duplicate-free across buffer resets", "statement": "Running a simulation with a RecordSignal diagnostic over the whole run leaves, at every time index t in [0, tot_samples), exactly the sample that the simulation produced for step t-1 (step -1 being the sample generated during preparation): nothing missing, nothing repeated, nothing taken from another time, however many times the internal buffer was wrapped.", "quantifier": "every tot_samples, sim_buffer, sim_chunk_size and block size with block+1 <= buffer, every signal content, every number of channels, every step of the run", "why_tests_cant": "Tests fix a handful of buffer/chunk sizes; off-by-one errors at a wrap depend on the arithmetic relation of all four sizes.", "anchors": ["src/aspsim/simulator.py:Simulator.run_simulation", "src/aspsim/simulator.py:Signals._reset_signals", "src/aspsim/simulator.py:Simulator.last_block_on_buffer", "src/aspsim/diagnostics/core.py:Logger.save_data", "src/aspsim/diagnostics/diagnostics.py:RecordSignal.save"]}
{"id": "C02", "title": "Results do not depend on chunk or buffer size", "statement": "Two simulations that differ only in sim_chunk_size and sim_buffer (both large enough for the processor) produce identical signals, recordings and exports and leave the processor in the same state at every step. With start_sources_before_0, where sim_buffer itself says how much is played before time 0, only sim_chunk_size may differ.", "quantifier": "every pair of admissible (sim_buffer, sim_chunk_size), every processor that only looks at a bounded window behind the current index and writes one block ahead, every source and path filter", "why_tests_cant": "Needs a comparison of two unbounded executions for all sizes and all processors.", "anchors": ["src/aspsim/simulator.py:Simulator.run_simulation", "src/aspsim/simulator.py:Signals._reset_signals", "src/aspsim/simulator.py:Propagator.propagate"]}
{"id": "C03", "title": "Interval-limited recording records exactly the requested intervals", "statement": "With save_at given as increasing non-overlapping intervals inside [0, tot_samples], the recorded signal holds the true sample at every time index that lies in one of the intervals and is unset (nan) everywhere else.", "quantifier": "every finite list of increasing non-overlapping non-empty intervals, every buffer/chunk/block size", "why_tests_cant": "The number of interval/chunk-boundary alignments is unbounded.", "anchors": ["src/aspsim/diagnostics/core.py:IntervalCounter", "src/aspsim/diagnostics/core.py:Logger.save_data", "src/aspsim/diagnostics/diagnostics.py:RecordSignal.save"]}
{"id": "C04", "title": "An export contains exactly the recorded samples before its index", "statement": "The data a signal diagnostic hands to its export function for export index e is exactly the recorded samples with time index smaller than e, in increasing time order, together with their time indices; all of them have been saved at the moment of the export.", "quantifier": "every export index, every interval list, every buffer/chunk/block size", "why_tests_cant": "Exports are dispatched late (at chunk boundaries), so correctness depends on the interleaving of saving and exporting over the whole run.", "anchors": ["src/aspsim/diagnostics/core.py:Logger.export_this_idx", "src/aspsim/diagnostics/core.py:Logger.dispatch", "src/aspsim/diagnostics/core.py:get_values_up_to_idx", "src/aspsim/diagnostics/core.py:SignalDiagnostic.get_processed_output"]}
{"id": "C05", "title": "Every requested export of a signal diagnostic happens exactly once and in order", "statement": "At the end of the run a signal diagnostic recorded over the whole simulation has been exported for precisely the requested indices that are at most tot_samples, each exactly once and in the requested increasing order; with a scalar export frequency f these are f, 2f, ..., floor(tot/f)*f.", "quantifier": "every export frequency and increasing export list, every tot_samples and buffer/chunk/block size", "why_tests_cant": "Liveness over the whole run for every combination of sizes.", "anchors": ["src/aspsim/diagnostics/core.py:Logger.dispatch", "src/aspsim/diagnostics/core.py:IndexCounter", "src/aspsim/simulator.py:Simulator.run_simulation"]}
{"id": "C06", "title": "The processor is called once per block, on time, often enough", "statement": "process(block_size) is called at step n exactly when n+1 is a multiple of block_size, so after n steps it has been called floor(n/block_size) times, and over the whole run it processes at least tot_samples samples.", "quantifier": "every block size >= 1, every tot_samples", "why_tests_cant": "Statement about every step of an unbounded run.", "anchors": ["src/aspsim/simulator.py:Simulator.run_simulation"]}
{"id": "C07", "title": "Processor blocks tile the microphone signal", "statement": "On its k-th call the processor finds in the block_size samples before the current index exactly the recorded microphone samples with time indices k*block_size .. (k+1)*block_size-1: consecutive calls see consecutive, non-overlapping blocks.", "quantifier": "every call number, every block size, every admissible buffer/chunk size", "why_tests_cant": "Involves all wrap/reset alignments.", "anchors": ["src/aspsim/simulator.py:Simulator.run_simulation", "src/aspsim/processor.py:DebugProcessor.process"]}
{"id": "C08", "title": "A processor block always fits in the signal buffer", "statement": "Whenever process is called, the block ahead of the current index and a look-back window of H samples behind it lie inside the stored signal arrays, provided sim_buffer >= block_size - 1 + H, sim_buffer > block_size and sim_chunk_size >= 2 (or >= block_size): no slice is truncated or wrapped, so no shape error and no silent loss occurs.", "quantifier": "every step of every run, every block size, buffer and chunk size satisfying the stated inequality", "why_tests_cant": "configutil notes that this should be checked but is not; out-of-range numpy slices truncate silently so a test can pass while data is lost.", "anchors": ["src/aspsim/simulator.py:Simulator.run_simulation", "src/aspsim/simulator.py:Simulator.last_block_on_buffer", "src/aspsim/configutil.py:SimulatorInfo.__post_init__"]}
{"id": "C09", "title": "Pass-through processor delays by exactly one block", "statement": "With the pass-through DebugProcessor the recorded loudspeaker signal is zero for the first block_size time indices and afterwards equals the recorded microphone signal delayed by block_size samples; the processor's own log of microphone samples equals the recorded microphone signal.", "quantifier": "every block size, tot_samples, buffer and chunk size, every microphone signal", "why_tests_cant": "The test checks one configuration only.", "anchors": ["src/aspsim/processor.py:DebugProcessor.process", "src/aspsim/simulator.py:Simulator.run_simulation"]}
{"id": "C10", "title": "Microphone signal is the sum of convolutions", "statement": "With static arrays, the recorded signal of microphone m at time t equals the sum over all source arrays s, all channels c and all taps k of path[s][m][c][k] times the recorded source sample at time t-k (samples before time 0 being zero when sources start at 0).", "quantifier": "every number of source and microphone arrays and channels, every impulse response, every source signal, every time index, every buffer/chunk size", "why_tests_cant": "Equality of two infinite families of sums; tests compare a few random cases.", "anchors": ["src/aspsim/simulator.py:Propagator.propagate", "src/aspsim/simulator.py:Propagator.prepare"]}
{"id": "C11", "title": "Source contributions add up to the microphone signal", "statement": "With save_source_contributions, for every microphone array and every recorded time index the signals named 'src~mic' summed over all sources equal the microphone signal.", "quantifier": "every set of arrays, every path (static or moving), every source and processor that does not write microphone signals, every time index >= 0", "why_tests_cant": "Must hold at every step and across every buffer reset.", "anchors": ["src/aspsim/simulator.py:Propagator.propagate", "src/aspsim/simulator.py:Propagator.prepare", "src/aspsim/simulator.py:Signals.__init__"]}
{"id": "C12", "title": "Source samples are consumed in order, one per step", "statement": "The recorded signal of a free source array at time t is the t-th sample the source delivers (the (sim_buffer-1+t)-th with start_sources_before_0): no sample is skipped, repeated or overwritten.", "quantifier": "every source object, every time index, every buffer/chunk size and processor that does not write the source's signal", "why_tests_cant": "Depends on every reset over an unbounded run.", "anchors": ["src/aspsim/simulator.py:Propagator.propagate", "src/aspsim/simulator.py:Propagator.prepare"]}
{"id": "C13", "title": "Closed-loop causality", "statement": "If two simulations use sources that agree on the first t samples, then all recorded signals (microphones, loudspeakers driven by any processor, contributions) agree up to time index t-1, whatever the sources do later.", "quantifier": "every t, every pair of source streams, every processor of any block size, every path", "why_tests_cant": "Quantifies over all futures of the input.", "anchors": ["src/aspsim/simulator.py:Simulator.run_simulation", "src/aspsim/simulator.py:Propagator.propagate"]}
{"id": "C14", "title": "Moving arrays use the impulse response of the current position", "statement": "With moving arrays the sample generated at step n is filtered with the impulse responses generated from the positions at the last update step u <= n, u a multiple of array_update_freq; pairs without moving arrays keep their initial impulse response.", "quantifier": "every trajectory, every array_update_freq >= 1, every step", "why_tests_cant": "Holds for every trajectory and every step.", "anchors": ["src/aspsim/array.py:ArrayCollection.update", "src/aspsim/simulator.py:Propagator.propagate", "src/aspsim/array.py:Array.update"]}
{"id": "C15", "title": "No microphone signal exists before the sources start", "statement": "With start_sources_before_0 = False every microphone signal is zero at all times before the first generated sample.", "quantifier": "every configuration and source", "why_tests_cant": "The history is only visible to processors that look back past time 0; no test does.", "anchors": ["src/aspsim/simulator.py:Propagator.prepare"]}
{"id": "C16", "title": "Warm start fills the whole history", "statement": "With start_sources_before_0 = True the sim_buffer samples before the first step hold the first sim_buffer source samples, and the microphone history is their convolution with the initial impulse responses.", "quantifier": "every sim_buffer >= 1, every source and static path", "why_tests_cant": "For all buffer lengths and responses.", "anchors": ["src/aspsim/simulator.py:Propagator.prepare"]}
{"id": "C17", "title": "A run without processors records every sample", "statement": "A simulation without processors completes the recording of all tot_samples samples for every positive sim_buffer and sim_chunk_size.", "quantifier": "every sim_buffer and sim_chunk_size", "why_tests_cant": "The step count and wrap condition use sim_buffer//4 which degenerates for small buffers; tests use large ones.", "anchors": ["src/aspsim/simulator.py:Simulator.run_simulation"]}
{"id": "C18", "title": "Linearity in the free sources", "statement": "Without processors, scaling or adding the free source signals scales or adds every microphone and contribution signal.", "quantifier": "every scalar, every pair of source streams, all paths (static or moving)", "why_tests_cant": "Algebraic identity over all inputs.", "anchors": ["src/aspsim/simulator.py:Propagator.propagate"]}
{"id": "C19", "title": "State diagnostics sample the processor state on schedule", "statement": "A RecordState diagnostic with save frequency f stores exactly floor(tot/f) values; the k-th is the state seen at step k*f, i.e. after floor((k*f+1)/block_size) process calls, labelled with time index k*f-1; the preallocated storage never overflows.", "quantifier": "every save frequency >= 1, tot_samples, block size, buffer and chunk size, every processor", "why_tests_cant": "Schedule alignment for all parameters.", "anchors": ["src/aspsim/diagnostics/core.py:StateDiagnostic", "src/aspsim/diagnostics/core.py:IntervalCounter.from_frequency", "src/aspsim/diagnostics/diagnostics.py:RecordState.save", "src/aspsim/diagnostics/core.py:Logger.save_data"]}
{"id": "C20", "title": "Every requested export of a state diagnostic happens", "statement": "A state diagnostic is exported for every requested export index that is at most tot_samples.", "quantifier": "every save frequency, export frequency and tot_samples", "why_tests_cant": "Whether the last export happens depends on divisibility relations.", "anchors": ["src/aspsim/diagnostics/core.py:Logger.export_this_idx", "src/aspsim/diagnostics/core.py:StateDiagnostic", "src/aspsim/diagnostics/core.py:IntervalCounter"]}
{"id": "C21", "title": "Export of a state diagnostic only contains values before its index", "statement": "The data handed to the export of a state diagnostic at index e consists of exactly the saved values whose time index is smaller than e.", "quantifier": "every list of increasing time indices, every e", "why_tests_cant": "The filtering has a special case that a small sample of inputs misses.", "anchors": ["src/aspsim/diagnostics/core.py:get_values_from_selection", "src/aspsim/diagnostics/core.py:StateDiagnostic.get_processed_output"]}
{"id": "C22", "title": "Instant diagnostics export the state of the requested step", "statement": "An instant diagnostic with an increasing list of indices (or a frequency) exports, for every requested index e reached by the run, exactly once, the processor property as it was at step e.", "quantifier": "every increasing index list, every block/buffer/chunk size, every processor", "why_tests_cant": "Requires that saving and exporting stay in lock-step over the whole run.", "anchors": ["src/aspsim/diagnostics/core.py:InstantDiagnostic", "src/aspsim/diagnostics/diagnostics.py:RecordFilter.save", "src/aspsim/diagnostics/core.py:Logger.dispatch"]}
{"id": "C23", "title": "Averaged power diagnostics do not depend on chunking", "statement": "SignalPower and SoundfieldPower yield the mean-square values of the true signal over the requested samples, independent of how the run is cut into chunks.", "quantifier": "every interval, every way of splitting it into saved pieces, every signal", "why_tests_cant": "All partitions of an interval.", "anchors": ["src/aspsim/diagnostics/diagnostics.py:SignalPower.save", "src/aspsim/diagnostics/diagnostics.py:SoundfieldPower.save"]}
{"id": "C24", "title": "Smoothed power ratio does not depend on chunking", "statement": "The SignalPowerRatio output is the ratio of the moving averages (length output_smoothing) of the two powers, independent of chunk boundaries.", "quantifier": "every smoothing length, every chunk size, every signal", "why_tests_cant": "Needs comparison over all chunk partitions.", "anchors": ["src/aspsim/diagnostics/diagnostics.py:SignalPowerRatio.save"]}
{"id": "C25", "title": "StatePower honours its save and export settings", "statement": "A StatePower diagnostic constructed with save_frequency f and export_at e saves every f samples and exports at e.", "quantifier": "every f and e", "why_tests_cant": "Argument order mistakes are invisible when f = e.", "anchors": ["src/aspsim/diagnostics/diagnostics.py:StatePower.__init__"]}
{"id": "C26", "title": "Interval counters generated from a frequency fit their declared size", "statement": "IntervalCounter.from_frequency(f, max) enumerates the intervals [k*f-1, k*f) for all k >= 1 with k*f <= max (and k = 0 when include_zero), and their number never exceeds num_values.", "quantifier": "every f >= 1 and max, both values of include_zero", "why_tests_cant": "Ceil/floor relation for all pairs.", "anchors": ["src/aspsim/diagnostics/core.py:IntervalCounter.from_frequency"]}
{"id": "C27", "title": "attritemgetter follows the written access path", "statement": "attritemgetter(name) resolves any path written as attributes with ['key'] and [index] items (keys and attribute names free of the characters . [ ] ') by applying exactly those accesses in order.", "quantifier": "every access path", "why_tests_cant": "String parser over all strings.", "anchors": ["src/aspsim/diagnostics/core.py:attritemgetter"]}
{"id": "C28", "title": "Keep-only-last deletes only superseded exports of the same diagnostic", "statement": "Exporting with keep_only_last_export removes exactly the earlier exports of the same diagnostic; files of other diagnostics, even if their names share a prefix, and non-numbered files are untouched. If the folder holds a later export of the same diagnostic, the export raises ValueError.", "quantifier": "every set of diagnostic names and export indices, every folder content", "why_tests_cant": "Name-prefix collisions over all strings.", "anchors": ["src/aspsim/diagnostics/plot.py:savenpz", "src/aspsim/fileutilities.py:find_all_earlier_files"]}
{"id": "C29", "title": "Export file names never collide", "statement": "Two exports get the same file name only if they are the same diagnostic and the same export index.", "quantifier": "every pair of diagnostic names and indices", "why_tests_cant": "All pairs of strings.", "anchors": ["src/aspsim/diagnostics/plot.py:savenpz"]}
{"id": "C30", "title": "Repeating sequence is periodic and independent of request sizes", "statement": "A Sequence source in 'repeat' mode delivers amp_factor times the audio repeated periodically; how the samples are requested (any split into get_samples calls) does not change the stream.", "quantifier": "every audio of positive length, every amp_factor, every list of request sizes", "why_tests_cant": "All request partitions.", "anchors": ["src/aspsim/signal/sources.py:Sequence.get_samples", "src/aspsim/utilities.py:calc_block_sizes"]}
{"id": "C31", "title": "Sequence in 'raise' mode plays the whole audio and then raises", "statement": "In 'raise' mode the source plays all its samples, scaled by amp_factor, and raises only when asked for samples beyond the end.", "quantifier": "every audio, every request pattern", "why_tests_cant": "Boundary request sizes.", "anchors": ["src/aspsim/signal/sources.py:Sequence.get_samples"]}
{"id": "C32", "title": "White noise stream is independent of request sizes", "statement": "Splitting requests to a WhiteNoiseSource does not change the samples delivered (same generator state, any number of channels).", "quantifier": "every generator stream, number of channels, list of request sizes", "why_tests_cant": "All partitions and streams.", "anchors": ["src/aspsim/signal/sources.py:WhiteNoiseSource.get_samples"]}
{"id": "C33", "title": "Coloured noise stream is independent of request sizes", "statement": "Splitting requests to a BandlimitedNoiseSource or AutocorrSource does not change the samples delivered.", "quantifier": "every generator stream, number of channels, filter, list of request sizes", "why_tests_cant": "All partitions and streams.", "anchors": ["src/aspsim/signal/sources.py:BandlimitedNoiseSource.get_samples", "src/aspsim/signal/sources.py:AutocorrSource.get_samples"]}
{"id": "C34", "title": "Sine sources are phase continuous", "statement": "SineSource and MultiSineSource deliver sqrt(2*power)*cos(w*n+phase) (resp. the sum over frequencies) at absolute sample n, for any split into requests, and never exceed their amplitude (resp. the sum of the amplitudes).", "quantifier": "every frequency, samplerate, initial phase, power >= 0, list of request sizes", "why_tests_cant": "Real-valued identity over all partitions.", "anchors": ["src/aspsim/signal/sources.py:SineSource.get_samples", "src/aspsim/signal/sources.py:MultiSineSource.get_samples"]}
{"id": "C35", "title": "Pulse train position", "statement": "PulseTrain delivers its amplitude at absolute sample n exactly when n - delay is a multiple of the period, zero otherwise, per channel and for any split into requests.", "quantifier": "every period >= 1, delay, amplitude, number of channels, list of request sizes", "why_tests_cant": "All sample indices and partitions.", "anchors": ["src/aspsim/signal/sources.py:PulseTrain.get_samples"]}
{"id": "C36", "title": "Counter source counts without gaps", "statement": "Counter delivers start, start+1, ... for any split into requests.", "quantifier": "every start number and list of request sizes", "why_tests_cant": "All partitions.", "anchors": ["src/aspsim/signal/sources.py:Counter.get_samples"]}
{"id": "C37", "title": "Gold sequence is periodic with exact power", "statement": "A GoldSequenceSource of order 5..11 delivers samples of absolute value sqrt(power), periodic with period 2^order-1, for any split into requests.", "quantifier": "every order in 5..11, every number of channels, power >= 0, list of request sizes, every sample index", "why_tests_cant": "All indices and partitions.", "anchors": ["src/aspsim/signal/sources.py:GoldSequenceSource"]}
{"id": "C38", "title": "Block partition helper", "statement": "calc_block_sizes(n, start, size) with 0 <= start < size returns positive block lengths that sum to n, the first reaching at most the block boundary, all intermediate blocks ending exactly on boundaries, none exceeding size; it terminates.", "quantifier": "every n, start < size", "why_tests_cant": "All triples.", "anchors": ["src/aspsim/utilities.py:calc_block_sizes"]}
{"id": "C39", "title": "Array registration is consistent", "statement": "After any sequence of add_array calls the collection knows every added array exactly once, each is listed as exactly one of microphone or source, free sources are sources, and duplicates are rejected without changing the collection.", "quantifier": "every sequence of additions, every array", "why_tests_cant": "All histories.", "anchors": ["src/aspsim/array.py:ArrayCollection.add_array"]}
{"id": "C40", "title": "User supplied paths win over generated ones", "statement": "A path set by set_path is used unchanged by the simulation; every other pair gets the path type set by the user, or else the default reverb type.", "quantifier": "every history of set_path / set_path_types calls, every default", "why_tests_cant": "All histories.", "anchors": ["src/aspsim/array.py:ArrayCollection.set_default_path_type", "src/aspsim/array.py:ArrayCollection.setup_ir", "src/aspsim/array.py:ArrayCollection.set_prop_path"]}
{"id": "C41", "title": "setup_ir produces a path of the right shape for every pair", "statement": "After setup_ir every (source, microphone) pair has an impulse response array of shape (num_src, num_mic, L), and nothing else is generated.", "quantifier": "every collection of non-empty arrays and path types", "why_tests_cant": "All collections.", "anchors": ["src/aspsim/array.py:ArrayCollection.setup_ir", "src/aspsim/room/roomimpulseresponse.py:PathGenerator.create_path"]}
{"id": "C42", "title": "Dynamic update regenerates exactly the affected paths, once", "statement": "An update step regenerates the path of every pair with at least one moving array exactly once, from the positions of that step, and leaves all other paths untouched; between update steps nothing changes.", "quantifier": "every collection of static and moving arrays, every step and update frequency", "why_tests_cant": "All collections, orders and steps.", "anchors": ["src/aspsim/array.py:ArrayCollection.update", "src/aspsim/array.py:ArrayCollection.update_path"]}
{"id": "C43", "title": "Any registered moving array can be simulated", "statement": "A simulation containing a moving array does not fail in its update step.", "quantifier": "every collection with a moving array", "why_tests_cant": "Depends on combinations of optional features.", "anchors": ["src/aspsim/array.py:ArrayCollection.update", "src/aspsim/array.py:ArrayCollection.update_path"]}
{"id": "C44", "title": "Group indices partition the array", "statement": "When positions are given as a list of groups, the group index lists partition 0..num-1 in order and each group's rows are the rows given for it.", "quantifier": "every list of position groups", "why_tests_cant": "All lists.", "anchors": ["src/aspsim/array.py:Array.__init__"]}
{"id": "C45", "title": "Room impulse responses are complete whatever the number of microphones", "statement": "ir_room_image_source_3d fills the response of every source/microphone pair exactly once with the simulated response truncated or zero-padded to ir_len, although microphones are handled in batches of 500.", "quantifier": "every number of microphones and sources, every ir_len and every response length", "why_tests_cant": "Batch boundary cases for all sizes.", "anchors": ["src/aspsim/room/roomimpulseresponse.py:ir_room_image_source_3d"]}
{"id": "C46", "title": "A loaded session equals a freshly computed one", "statement": "When create_simulator loads a stored session instead of computing impulse responses, the simulation behaves as if they had been computed from the current setup.", "quantifier": "every stored session, every current setup", "why_tests_cant": "Quantifies over all pairs of setups accepted by the matching test.", "anchors": ["src/aspsim/saveloadsession.py:search_for_matching_session", "src/aspsim/array.py:prototype_equals", "src/aspsim/configutil.py:equal_audio", "src/aspsim/saveloadsession.py:load_session"]}
{"id": "C47", "title": "A saved session is found again", "statement": "After a session was saved for a setup, a later search with the same setup returns a session (the saved one or an earlier match), never 'not found'.", "quantifier": "every setup, every number of other complete sessions in the folder, every directory order", "why_tests_cant": "All folder contents and orders.", "anchors": ["src/aspsim/saveloadsession.py:save_session", "src/aspsim/saveloadsession.py:search_for_matching_session"]}
{"id": "C48", "title": "A crash while saving a session does not break later runs", "statement": "If the program stops at any point inside save_session, a later create_simulator still either finds a complete session or computes a new one.", "quantifier": "every crash point, every folder content, every setup", "why_tests_cant": "Crash points are not exercised by tests.", "anchors": ["src/aspsim/saveloadsession.py:save_session", "src/aspsim/saveloadsession.py:search_for_matching_session", "src/aspsim/simulator.py:SimulatorSetup.create_simulator"]}
{"id": "C49", "title": "A session saved by create_simulator can be loaded by path", "statement": "load_from_path on a session folder written by create_simulator returns the stored configuration and arrays, with or without a figure folder.", "quantifier": "every setup", "why_tests_cant": "Depends on which files earlier code paths wrote.", "anchors": ["src/aspsim/saveloadsession.py:load_from_path", "src/aspsim/saveloadsession.py:copy_sim_metadata", "src/aspsim/array.py:ArrayCollection.setup_ir"]}
{"id": "C50", "title": "Simulators created from one setup are independent", "statement": "Creating or running a simulator, or changing the setup afterwards, does not change the outcome of another simulator created from the same setup.", "quantifier": "every interleaving of create, change config, change arrays, run", "why_tests_cant": "Aliasing over all interleavings.", "anchors": ["src/aspsim/simulator.py:SimulatorSetup.create_simulator", "src/aspsim/room/roomimpulseresponse.py:PathGenerator.calc_rir_parameters"]}
{"id": "C51", "title": "Audio-configuration comparison is an equivalence", "statement": "For fixed path types, equal_audio is reflexive, symmetric and transitive, and ignores all bookkeeping parameters.", "quantifier": "every pair/triple of configurations", "why_tests_cant": "All triples.", "anchors": ["src/aspsim/configutil.py:equal_audio"]}
{"id": "C52", "title": "Processor names become unique", "statement": "set_unique_processor_names leaves all processor names pairwise distinct, keeps the first occurrence of each name, and terminates.", "quantifier": "every list of names", "why_tests_cant": "All lists incl. adversarial suffix collisions.", "anchors": ["src/aspsim/simulator.py:set_unique_processor_names"]}
{"id": "C53", "title": "Phase counter reports the phase containing the index", "statement": "After n progress calls PhaseCounter.phase is the phase whose sample range contains n (zero-length phases are skipped, negative lengths mean infinite), and first_sample is True exactly on the first sample of each phase.", "quantifier": "every list of phase lengths with a positive one, every n below the total length", "why_tests_cant": "All schedules and indices.", "anchors": ["src/aspsim/counter.py:PhaseCounter"]}
{"id": "C54", "title": "Phase is None after all phases have finished", "statement": "Once all phases have finished, PhaseCounter.phase is None.", "quantifier": "every list of finite phase lengths, every n at or past the total", "why_tests_cant": "Documented terminal state, all schedules.", "anchors": ["src/aspsim/counter.py:PhaseCounter"]}
{"id": "C55", "title": "Event counter fires on the grid", "statement": "After n >= 1 progress calls the event set consists of exactly the events with n congruent to the offset modulo the frequency.", "quantifier": "every event table with positive frequencies, every n", "why_tests_cant": "All indices.", "anchors": ["src/aspsim/counter.py:EventCounter"]}
{"id": "C56", "title": "Grid points of box-shaped regions lie inside, evenly spaced and centred", "statement": "equally_spaced_points of Cuboid and Rectangle returns floor(side/spacing) coordinates per axis, all inside the region, consecutive ones exactly one spacing apart, symmetric about the centre, and every combination of axis coordinates exactly once.", "quantifier": "every side length, centre, spacing with at least one point per axis", "why_tests_cant": "Real-valued parameters.", "anchors": ["src/aspsim/room/region.py:Cuboid.equally_spaced_points", "src/aspsim/room/region.py:Rectangle.equally_spaced_points"]}
{"id": "C57", "title": "Grid of a box leaves no large hole", "statement": "Every point of a Cuboid or Rectangle is within one spacing, along each axis, of a point of equally_spaced_points.", "quantifier": "every point of the region, every side/spacing", "why_tests_cant": "Continuum of points.", "anchors": ["src/aspsim/room/region.py:Cuboid.equally_spaced_points", "src/aspsim/room/region.py:Rectangle.equally_spaced_points"]}
{"id": "C58", "title": "Grid points of round regions lie inside", "statement": "equally_spaced_points of Disc, Ball and Cylinder contains exactly the points of its rectangular grid that lie in the region; all returned points are accepted by is_in_region.", "quantifier": "every radius, height, centre, spacing", "why_tests_cant": "Real-valued parameters.", "anchors": ["src/aspsim/room/region.py:Disc.equally_spaced_points", "src/aspsim/room/region.py:Ball.equally_spaced_points", "src/aspsim/room/region.py:Cylinder.equally_spaced_points"]}
{"id": "C59", "title": "Random points lie in their region", "statement": "sample_points of Cuboid, Rectangle, Disc, Ball and Cylinder returns exactly num_points points, all in the region.", "quantifier": "every outcome of the random generator, every parameter", "why_tests_cant": "All random outcomes.", "anchors": ["src/aspsim/room/region.py:Cuboid.sample_points", "src/aspsim/room/region.py:Disc.sample_points", "src/aspsim/room/region.py:Ball.sample_points", "src/aspsim/room/region.py:Cylinder.sample_points", "src/aspsim/room/region.py:Rectangle.sample_points"]}
{"id": "C60", "title": "A combined region is sampled in proportion to volume", "statement": "CombinedRegion.sample_points draws each constituent region with probability proportional to its volume.", "quantifier": "every list of regions, every uniform draw", "why_tests_cant": "Measure over all draws.", "anchors": ["src/aspsim/room/region.py:CombinedRegion.sample_points"]}
{"id": "C61", "title": "Region membership is decided point by point", "statement": "is_in_region returns, for each coordinate of a batch, whether that coordinate lies in the region; the answer for one coordinate does not depend on the others; for a combined region it is the union.", "quantifier": "every batch of coordinates, every region", "why_tests_cant": "All batches.", "anchors": ["src/aspsim/room/region.py:Rectangle.is_in_region", "src/aspsim/room/region.py:Disc.is_in_region", "src/aspsim/room/region.py:CombinedRegion.is_in_region"]}
{"id": "C62", "title": "Coordinate conversions round-trip", "statement": "spherical2cart(cart2spherical(p)) = p for every point including the origin and the poles, pol2cart(cart2pol(x,y)) = (x,y), and the zenith angle lies in [0, pi].", "quantifier": "every point of the space/plane", "why_tests_cant": "Continuum.", "anchors": ["src/aspsim/room/generatepoints.py:cart2spherical", "src/aspsim/room/generatepoints.py:spherical2cart", "src/aspsim/room/generatepoints.py:cart2pol", "src/aspsim/room/generatepoints.py:pol2cart"]}
{"id": "C63", "title": "Linear trajectory at constant speed", "statement": "LinearTrajectory in constant_speed mode is periodic with the period, visits every anchor point, stays on the closed polygon, and between two times inside one segment covers distance proportional to elapsed time with the same speed in all segments.", "quantifier": "every polygon with distinct consecutive points, every period, samplerate and time", "why_tests_cant": "Continuum of times.", "anchors": ["src/aspsim/room/trajectory.py:LinearTrajectory._constant_speed_pos_func"]}
{"id": "C64", "title": "Linear trajectory with constant segment time uses the whole period", "statement": "In constant_time mode each of the segments of the closed polygon takes an equal share of the period and the starting point is reached again only at the end of the period.", "quantifier": "every polygon, period, time", "why_tests_cant": "Continuum of times.", "anchors": ["src/aspsim/room/trajectory.py:LinearTrajectory._constant_time_pos_func"]}
{"id": "C65", "title": "Circular trajectory stays between its radii", "statement": "CircularTrajectory always has distance to the centre between inner and outer radius in the plane of the centre, starts at the outer radius at the start angle, reaches the inner radius after half a radial period, and repeats.", "quantifier": "every radius pair, centre, periods, time", "why_tests_cant": "Continuum of times.", "anchors": ["src/aspsim/room/trajectory.py:CircularTrajectory"]}
{"id": "C66", "title": "Points on a rectangle perimeter", "statement": "equidistant_rectangle returns exactly num_points points, all on the perimeter, consecutive positions separated by circumference/num_points along the perimeter.", "quantifier": "every num_points >= 1, side lengths, offset in [0,1]", "why_tests_cant": "Real-valued parameters.", "anchors": ["src/aspsim/room/generatepoints.py:equidistant_rectangle"]}
{"id": "C67", "title": "Layered point generators distribute all points evenly", "statement": "concentrical_circles and stacked_equidistant_rectangles place exactly num_points points, layer sizes differing by at most one, layer heights evenly spaced and centred around zero.", "quantifier": "every num_points, number of layers >= 1, distance", "why_tests_cant": "All integer pairs.", "anchors": ["src/aspsim/room/generatepoints.py:concentrical_circles", "src/aspsim/room/generatepoints.py:stacked_equidistant_rectangles"]}
{"id": "C68", "title": "Equiangular circle", "statement": "equiangular_circle returns num_points points whose distance from the origin lies between the given radii, at consecutive angles one num_points-th of a turn apart.", "quantifier": "every num_points >= 1, radii, start angle, random outcome", "why_tests_cant": "Continuum.", "anchors": ["src/aspsim/room/generatepoints.py:equiangular_circle"]}
{"id": "C69", "title": "Unique folder names are unused", "statement": "get_unique_folder_name returns a path that does not exist in the parent folder, the first free one in numeric order, and terminates.", "quantifier": "every finite folder content, prefix and time string", "why_tests_cant": "All folder contents.", "anchors": ["src/aspsim/fileutilities.py:get_unique_folder_name"]}
{"id": "C70", "title": "Multiple unique folder names are all unused", "statement": "get_multiple_unique_folder_names returns num_names distinct paths none of which exists.", "quantifier": "every folder content and num_names", "why_tests_cant": "Gaps in numbering.", "anchors": ["src/aspsim/fileutilities.py:get_multiple_unique_folder_names"]}
{"id": "C71", "title": "Highest numbered file exists", "statement": "get_highest_numbered_file returns an existing file of the folder with the largest number, or None if there is none.", "quantifier": "every folder content", "why_tests_cant": "All file names.", "anchors": ["src/aspsim/fileutilities.py:get_highest_numbered_file"]}
{"id": "C72", "title": "Trailing index of a name", "statement": "find_index_in_name(prefix + str(n)) = n for every prefix not ending in a digit, None for names not ending in a digit.", "quantifier": "every prefix and n", "why_tests_cant": "All strings.", "anchors": ["src/aspsim/fileutilities.py:find_index_in_name"]}
{"id": "C73", "title": "Earlier-file search", "statement": "find_all_earlier_files returns exactly the files of the series with smaller index, never the current one, and raises if a later one exists (when asked to).", "quantifier": "every folder content, name and index", "why_tests_cant": "All folder contents.", "anchors": ["src/aspsim/fileutilities.py:find_all_earlier_files"]}
{"id": "C74", "title": "Block helpers of the processor module", "statement": "find_first_index_for_block / block_process_until_index give consecutive blocks of exactly block_size that end at the requested index and start less than one block after the earliest allowed index.", "quantifier": "every earliest start <= end, block size >= 1", "why_tests_cant": "All triples.", "anchors": ["src/aspsim/processor.py:find_first_index_for_block", "src/aspsim/processor.py:block_process_until_index"]}
{"id": "C75", "title": "MLS source is the LFSR sequence, however it is requested", "statement": "The blocks returned by MLS.get_samples, concatenated, are the +-1 values of the one shift-register sequence that starts with the state given to the constructor (ones, if none is given); splitting the requests differently never changes the samples.", "quantifier": "every order/poly/state and every list of request lengths", "why_tests_cant": "All request patterns and unboundedly long outputs.", "anchors": ["src/aspsim/signal/sources.py:MLS"]}
{"id": "C76", "title": "Different exports never overwrite each other", "statement": "Two exports by different export functions, diagnostics or time indices write to different files.", "quantifier": "every pair of export functions, diagnostic names and indices", "why_tests_cant": "All names and indices.", "anchors": ["src/aspsim/diagnostics/plot.py:function_of_time_plot", "src/aspsim/diagnostics/plot.py:spectrum_plot", "src/aspsim/diagnostics/plot.py:savenpz", "src/aspsim/diagnostics/plot.py:create_audio_files"]}
{"id": "C77", "title": "A valid setup runs to its end", "statement": "If the arrays have distinct names, the sources can deliver samples, every impulse response has the shape (sources, microphones), the processor does not raise and the diagnostics fit the simulation (existing signals and channels, properties of the processor that can be read and have the announced number of values, save intervals within the run), then run_simulation returns without an exception, for every sim_buffer, sim_chunk_size and block size that fit together.", "quantifier": "every valid setup, every list of diagnostics of any class, every admissible buffer, chunk and block size and every number of samples", "why_tests_cant": "A run can fail at any step, e.g. a slice at a chunk boundary; tests cover a few sizes.", "anchors": ["src/aspsim/simulator.py:Simulator.run_simulation", "src/aspsim/simulator.py:Propagator.prepare", "src/aspsim/simulator.py:Propagator.propagate", "src/aspsim/diagnostics/core.py:Logger.save_data"]}
{"id": "C78", "title": "Stored sessions never make create_simulator fail", "statement": "With a session folder, create_simulator succeeds whenever it would succeed without one: sessions of other setups, written earlier by create_simulator, are skipped.", "quantifier": "every setup and every folder of sessions written by create_simulator for other setups", "why_tests_cant": "All pairs of setups; the comparison can raise instead of returning False.", "anchors": ["src/aspsim/simulator.py:SimulatorSetup.create_simulator", "src/aspsim/saveloadsession.py:search_for_matching_session", "src/aspsim/array.py:prototype_equals", "src/aspsim/configutil.py:load_from_file"]}
{"id": "C79", "title": "Every other point is placed on the larger rectangle", "statement": "With extra_side_lengths, equidistant_rectangle places every other point along the perimeter on the larger rectangle and the points between them on the smaller one.", "quantifier": "every num_points, side lengths, extra side lengths, offset in [0,1)", "why_tests_cant": "Depends on how many points fall on each side, for all real side lengths.", "anchors": ["src/aspsim/room/generatepoints.py:equidistant_rectangle"]}
{"id": "C80", "title": "A collection of trajectories moves each member", "statement": "The positions of a TrajectoryCollection at a time are the positions of its members at that time, one after the other in order.", "quantifier": "every list of trajectories, every time", "why_tests_cant": "All lists and times.", "anchors": ["src/aspsim/room/trajectory.py:TrajectoryCollection"]}
{"id": "C81", "title": "The sound field image shows each microphone at its place", "statement": "For microphones on a rectangular grid, given in any order, sort_for_imshow returns a matrix whose columns run along increasing x and whose rows run along decreasing y, with the signal of the microphone at that position in each entry.", "quantifier": "every rectangular grid with spacing above the rounding, every order of the microphones, every signal", "why_tests_cant": "All grids and all permutations of the positions.", "anchors": ["src/aspsim/diagnostics/soundfieldplot.py:sort_for_imshow"]}
{"id": "C82", "title": "Sorted positions match sorted signals", "statement": "In the result of sort_for_imshow, the entry (i, j) of the positions is the position of the microphone whose signal is entry (i, j) of the signals.", "quantifier": "every rectangular grid and signal", "why_tests_cant": "All grids and permutations.", "anchors": ["src/aspsim/diagnostics/soundfieldplot.py:sort_for_imshow"]}
{"id": "C83", "title": "The legend shows each label once", "statement": "The legend of a plot shows every label of the plotted lines exactly once, with the first line that has it.", "quantifier": "every list of lines and labels", "why_tests_cant": "All lists of labels, including those that are changed for LaTeX.", "anchors": ["src/aspsim/diagnostics/plot.py:legend_without_duplicates"]}
{"id": "C84", "title": "Exported audio is the normalised recording", "statement": "create_audio_files writes as many samples as were recorded, scaled to a largest magnitude of 1, faded in at the beginning and faded out at the end.", "quantifier": "every recording, length and sample rate", "why_tests_cant": "All lengths relative to the length of the fade, and all signals.", "anchors": ["src/aspsim/diagnostics/plot.py:create_audio_files"]}
{"id": "C85", "title": "Each export function gets its own settings", "statement": "With several export functions, each one is called exactly once per export, with its own keyword arguments and the data after its own preprocessing steps, applied in order; settings that were not given default to none.", "quantifier": "every list of export functions, keyword arguments and preprocessing lists", "why_tests_cant": "All combinations of list lengths and defaults.", "anchors": ["src/aspsim/diagnostics/core.py:Diagnostic"]}
{"id": "C86", "title": "uniform_filled_rectangle returns the requested grid", "statement": "For a square number of points, uniform_filled_rectangle returns exactly that many points, the full grid between the limits with equal spacing in each direction; any other number is rejected.", "quantifier": "every number of points, limits, height", "why_tests_cant": "All numbers, including those that rounding to a square root misjudges.", "anchors": ["src/aspsim/room/generatepoints.py:uniform_filled_rectangle"]}
{"id": "C87", "title": "uniform_filled_cuboid returns the requested cell centres", "statement": "For a number of points that is z_num_points times a square, uniform_filled_cuboid returns exactly that many points, the centres of a division of the cuboid into equal cells; any other number is rejected.", "quantifier": "every number of points, dimensions, z_num_points", "why_tests_cant": "All numbers of points and dimensions.", "anchors": ["src/aspsim/room/generatepoints.py:uniform_filled_cuboid"]}
{"id": "C88", "title": "uniform_disc has the requested spacing", "statement": "uniform_disc returns the points of a square lattice with spacing point_distance that lie in the disc.", "quantifier": "every distance, radius, height", "why_tests_cant": "All real distances and radii.", "anchors": ["src/aspsim/room/generatepoints.py:uniform_disc"]}
{"id": "C89", "title": "sunflower_pattern covers the disc evenly", "statement": "sunflower_pattern returns N points of the disc such that the number of points within any distance of the centre is proportional to the area (up to one point), rotated by offset_angle.", "quantifier": "every N, radius, offset angle, distance", "why_tests_cant": "All N and all distances.", "anchors": ["src/aspsim/room/generatepoints.py:sunflower_pattern"]}
{"id": "C90", "title": "uniform_cylinder returns the requested number of points", "statement": "uniform_cylinder returns num_points points inside the cylinder, on four layers that divide the height evenly.", "quantifier": "every number of points, radius, height, random angles", "why_tests_cant": "All numbers of points and all draws.", "anchors": ["src/aspsim/room/generatepoints.py:uniform_cylinder"]}
{"id": "C94", "title": "Preprocessing smooths and limits the data", "statement": "smooth(q) replaces each value by the average of itself and the q-1 values before it (zeros before the beginning), so that an export of a longer recording begins with the export of a shorter one; clip(low, high) limits each value and keeps values within the limits.", "quantifier": "every signal, smoothing length, limits", "why_tests_cant": "All signals and lengths.", "anchors": ["src/aspsim/diagnostics/preprocessing.py:smooth", "src/aspsim/diagnostics/preprocessing.py:clip"]}
{"id": "C92", "title": "Summary diagnostics use exactly their range", "statement": "SignalPowerSpectrum exports once, at the end of save_range, the spectrum of exactly the samples of the selected channels in save_range; SignalSummary exports once the summary of the samples in save_range divided by their number. Neither depends on sim_chunk_size or the processor block size.", "quantifier": "every completed run, range, channel selection, summary function", "why_tests_cant": "All chunk sizes, block sizes and ranges: the range is delivered in pieces that depend on them.", "anchors": ["src/aspsim/diagnostics/diagnosticscollection.py:SignalPowerSpectrum", "src/aspsim/diagnostics/diagnosticscollection.py:SignalSummary", "src/aspsim/diagnostics/diagnosticscollection.py:SummaryDiagnostic"]}
{"id": "C93", "title": "Derived state diagnostics compute from the states of the right iterations", "statement": "StateComparison, StateSummary and EigenvaluesOverTime export, for every multiple of save_frequency up to the export index, their function of the processor state(s) as that iteration left them, labelled with its time index; EigenvaluesOverTime gives the eigenvalues number eigval_idx[0] to eigval_idx[1] in ascending order; Eigenvalues exports all eigenvalues in ascending order, RecordFilterDifference the difference of two properties at the chosen indices.", "quantifier": "every completed run, save frequency, export indices, functions", "why_tests_cant": "All schedules and block sizes.", "anchors": ["src/aspsim/diagnostics/diagnostics.py:StateComparison", "src/aspsim/diagnostics/diagnostics.py:StateSummary", "src/aspsim/diagnostics/diagnostics.py:RecordFilterDifference", "src/aspsim/diagnostics/diagnosticscollection.py:EigenvaluesOverTime", "src/aspsim/diagnostics/diagnosticscollection.py:Eigenvalues.save"]}
{"id": "C91", "title": "Frequency-domain paths are the responses to steady tones", "statement": "get_freq_paths(num_freqs, samplerate) returns for every source and microphone array num_freqs/2+1 matrices and their frequencies k*samplerate/num_freqs up to half the samplerate; a tone of one of these frequencies fed to one source channel is received, after the initial transient, scaled and shifted by the complex entry for that source and microphone, and the first num_freqs taps of every path can be recovered from the matrices. Odd num_freqs, 0 and missing paths are rejected.", "quantifier": "every collection, path matrix, even num_freqs, samplerate, amplitude, phase", "why_tests_cant": "Ranges over all path lengths (shorter and longer than num_freqs), frequencies and phases.", "anchors": ["src/aspsim/array.py:ArrayCollection.get_freq_paths"]}
{"id": "C95", "title": "The reported truncation error is the worst loss of the delivered responses", "statement": "The metadata of simulated paths reports as Max Normalized Truncation Error the largest share (in dB) of the energy of a simulated response that is missing in the delivered response, over all sources and microphones, and as Max Normalized Truncation Value the largest missing sample relative to the peak; the measured RT60 statistics cover all pairs of sources and microphones.", "quantifier": "all simulated responses, numbers of sources and microphones (all batches of 500), maximum lengths and minimum delays", "why_tests_cant": "The maximum runs over all pairs and over batches that only exist for more than 500 microphones.", "anchors": ["src/aspsim/room/roomimpulseresponse.py:ir_room_image_source_3d", "src/aspsim/room/roomimpulseresponse.py:calc_truncation_info", "src/aspsim/room/roomimpulseresponse.py:calc_truncation_error", "src/aspsim/room/roomimpulseresponse.py:calc_truncation_value"]}
{"id": "C96", "title": "AutocorrSource produces noise with the given autocorrelation", "statement": "The coefficients computed from the given lags satisfy the Yule-Walker equations; every sample delivered after the first `order` ones is the combination of the previous delivered samples with these coefficients plus white noise of the matching power, independent between samples and channels, however the requests are split; and the signal has the given power and autocorrelation from its first sample on.", "quantifier": "all numbers of channels, lags, orders, draws and splits into requests", "why_tests_cant": "All splits into requests and all orders; the autocorrelation of a random signal is not observable from finitely many samples.", "anchors": ["src/aspsim/signal/sources.py:AutocorrSource", "src/aspsim/signal/sources.py:ar_coeffs_from_autocorr", "src/aspsim/signal/sources.py:ar_coeffs_to_transfer_function"]}
{"id": "C97", "title": "Adding the arrays of another collection keeps what was set for them", "statement": "SimulatorSetup.add_arrays adds all arrays of a collection after those of the setup, rejects names that are already used, and a simulator created afterwards uses for the added arrays the types of propagation and the paths that were set in that collection.", "quantifier": "every setup and collection, every pair of arrays", "why_tests_cant": "All combinations of arrays, types and given paths.", "anchors": ["src/aspsim/simulator.py:SimulatorSetup.add_arrays", "src/aspsim/array.py:ArrayCollection.set_path_types"]}
{"id": "C98", "title": "Keeping only the latest TikZ plot loses nothing else", "statement": "Plotting with keep_only_latest_tikz at increasing time indices leaves the latest plot with all its files, every earlier plot as its unchanged PDF file, and everything else in the folder as it was, without exceptions. Without keep_only_latest_tikz every earlier plot stays as it is.", "quantifier": "every folder, diagnostic name, increasing sequence of time indices and files written by the plots", "why_tests_cant": "All series of plots and folder contents.", "anchors": ["src/aspsim/diagnostics/plot.py:delete_earlier_tikz_plot", "src/aspsim/diagnostics/plot.py:output_plot"]}
{"id": "C99", "title": "The types none, direct and random mean what they say", "statement": "With propagation type \"direct\" each microphone hears exactly the source channel of the same number, unchanged and without delay; with \"none\" it hears nothing; with \"random\" the path consists of max_room_ir_length draws of the random generator for every pair; direct paths between arrays of different size, unknown types and image sources in other than three dimensions are rejected.", "quantifier": "every configuration, pair of arrays, past and present input", "why_tests_cant": "All signals, array sizes and configurations, including the high-pass filter.", "anchors": ["src/aspsim/room/roomimpulseresponse.py:PathGenerator.create_path", "src/aspsim/room/roomimpulseresponse.py:filter_rirs"]}
{"id": "C100", "title": "volume is the volume of the region", "statement": "The attribute volume of Cuboid, Rectangle, Disc, Ball and Cylinder is the Lebesgue measure of the set of coordinates that is_in_region accepts, and the volume of a CombinedRegion that of the union of its regions; overlapping regions are rejected.", "quantifier": "every region, every list of regions", "why_tests_cant": "A measure of an infinite set; tests compare a formula with itself.", "anchors": ["src/aspsim/room/region.py:Cuboid.__init__", "src/aspsim/room/region.py:Rectangle.__init__", "src/aspsim/room/region.py:Disc.__init__", "src/aspsim/room/region.py:Ball.__init__", "src/aspsim/room/region.py:Cylinder.__init__", "src/aspsim/room/region.py:CombinedRegion._overlaps"]}
{"id": "C101", "title": "Random points are independent and uniformly distributed", "statement": "With a generator of independent uniform numbers, the points returned by sample_points of Cuboid, Rectangle, Disc, Ball and Cylinder are independent and each is uniformly distributed over the coordinates that is_in_region accepts; the rejection sampling of Ball returns with probability one.", "quantifier": "every region with positive sizes, every number of points, every probability space with a generator", "why_tests_cant": "A statement about probability distributions; statistical tests can only fail to refute it.", "anchors": ["src/aspsim/room/region.py:Cuboid.sample_points", "src/aspsim/room/region.py:Rectangle.sample_points", "src/aspsim/room/region.py:Disc.sample_points", "src/aspsim/room/region.py:Ball.sample_points", "src/aspsim/room/region.py:Cylinder.sample_points"]}
{"id": "C102", "title": "Noise and sine sources have the requested power", "statement": "With a generator of independent numbers, all samples of a white noise source are independent, normally distributed with mean 0 and the power of their channel; every sample of SineSource and MultiSineSource has mean 0 and expected square power; and over time the mean square of every source tends to its power, for sines below half the samplerate and with different frequencies.", "quantifier": "every probability space with a generator, every power, number of channels, frequency and samplerate, every split into requests", "why_tests_cant": "Distributions and limits; a test sees one seed and finitely many samples.", "anchors": ["src/aspsim/signal/sources.py:WhiteNoiseSource", "src/aspsim/signal/sources.py:SineSource", "src/aspsim/signal/sources.py:MultiSineSource"]}
{"id": "C103", "title": "Different sources deliver independent noise", "statement": "The noise of two sources is independent: nothing can be learnt about the samples of one from those of the other.", "quantifier": "every pair of white noise sources, with generators of their own or without", "why_tests_cant": "Independence of infinite families of random variables.", "anchors": ["src/aspsim/signal/sources.py:Source.__init__", "src/aspsim/signal/sources.py:WhiteNoiseSource.get_samples"]}
{"id": "C104", "title": "A new power takes effect with the next sample and changes nothing else", "statement": "For every sequence of calls of get_samples and set_power, each sample has the power set last before it was requested, and is otherwise the sample that the source would have delivered without the changes; a rejected power leaves the source as it was.", "quantifier": "every sequence of calls, every power and number of channels", "why_tests_cant": "All interleavings of two kinds of calls.", "anchors": ["src/aspsim/signal/sources.py:WhiteNoiseSource.set_power", "src/aspsim/signal/sources.py:BandlimitedNoiseSource.set_power", "src/aspsim/signal/sources.py:GoldSequenceSource.set_power"]}
{"id": "C105", "title": "An array of powers gives each channel its own power", "statement": "A source created with an array of powers, one for each channel, delivers channel c with the power at position c.", "quantifier": "every number of channels, array of powers and sequence of requests", "why_tests_cant": "All arrays and request sizes: the failures depend on the number of samples requested.", "anchors": ["src/aspsim/signal/sources.py:WhiteNoiseSource.get_samples", "src/aspsim/signal/sources.py:SineSource.get_samples", "src/aspsim/signal/sources.py:BandlimitedNoiseSource.get_samples", "src/aspsim/signal/sources.py:GoldSequenceSource.get_samples"]}
{"id": "C106", "title": "Only positions relative to the room matter", "statement": "If the centre of the room and the positions and trajectories of all arrays are moved by the same vector, every impulse response, signal, exported file and exception stays the same. A point lies between the walls of the simulated room exactly if it lies in the cuboid with size room_size around room_center.", "quantifier": "every room, vector, collection of arrays, trajectory, processor, diagnostics and number of samples", "why_tests_cant": "A symmetry over all setups and all displacement vectors, also through moving arrays.", "anchors": ["src/aspsim/room/roomimpulseresponse.py:ir_room_image_source_3d", "src/aspsim/room/roomimpulseresponse.py:PathGenerator", "src/aspsim/array.py:ArrayCollection.update_path"]}
{"id": "C107", "title": "Without image sources the room and the coordinates do not matter", "statement": "If no path has the type ism, two simulations whose arrays differ only in their coordinates, in rooms that may differ in size, centre, reverberation time and speed of sound, give the same signals, exports and exceptions.", "quantifier": "every pair of rooms and collections that differ only in those values, every run", "why_tests_cant": "Non-interference between two families of complete runs.", "anchors": ["src/aspsim/room/roomimpulseresponse.py:PathGenerator.create_path", "src/aspsim/simulator.py:SimulatorSetup.create_simulator"]}
{"id": "C108", "title": "Band-limited noise has the requested power", "statement": "The expected square of the samples of BandlimitedNoiseSource is the power set last before they were requested, from the first sample on, and the channels are independent.", "quantifier": "every power, linear filter, number of channels and sequence of calls of get_samples and set_power, every probability space with a generator", "why_tests_cant": "Expectations over all draws and all request sizes, with an unbounded filter memory.", "anchors": ["src/aspsim/signal/sources.py:BandlimitedNoiseSource.__init__", "src/aspsim/signal/sources.py:BandlimitedNoiseSource.get_samples", "src/aspsim/signal/sources.py:BandlimitedNoiseSource.set_power"]}
{"id": "C109", "title": "Diagnostics only observe", "statement": "Adding or removing diagnostics changes neither the signals, sources, filters, arrays and processor of a run, nor the state, the exported results, their order and times of the other diagnostics. Diagnostics that can be used in two separate runs can be used together in one run.", "quantifier": "every configuration, processor, set of diagnostics and subset of it, every completed run", "why_tests_cant": "Relates two complete runs for every subset of diagnostics, through an export loop that runs until nothing is due any more.", "anchors": ["src/aspsim/diagnostics/core.py:Logger.save_data", "src/aspsim/diagnostics/core.py:Logger.dispatch", "src/aspsim/simulator.py:Simulator.run_simulation"]}
{"id": "C110", "title": "Microphones only observe", "statement": "Leaving out microphone arrays that neither the processor nor the diagnostics use changes nothing else: if a simulation completes, it completes without them, with the same other signals, sources, processor states, impulse responses to the other microphones and exports. Paths of type random are excepted, as they are drawn one after the other from one generator.", "quantifier": "every collection of arrays with trajectories, subset of its microphones, room, processor, diagnostics and number of samples", "why_tests_cant": "Non-interference between two families of complete runs, including moving arrays and contribution signals.", "anchors": ["src/aspsim/simulator.py:Propagator.propagate", "src/aspsim/simulator.py:Propagator.prepare", "src/aspsim/array.py:ArrayCollection.update", "src/aspsim/array.py:ArrayCollection.setup_ir", "src/aspsim/simulator.py:Signals"]}
{"id": "C111", "title": "The order of adding arrays does not matter", "statement": "Adding the same arrays in another order gives the same simulation: the same signals, filters, impulse responses, processor states and exports, and it completes in one order if it completes in the other. Paths of type random are excepted, as they are drawn one after the other.", "quantifier": "every collection of static and moving arrays, every permutation of it, every room, processor, diagnostics and number of samples", "why_tests_cant": "Relates complete runs for every permutation of the arrays; the sums over the sources, the updates of moving pairs and the bookkeeping of already updated arrays all run in another order.", "anchors": ["src/aspsim/array.py:ArrayCollection.add_array", "src/aspsim/array.py:ArrayCollection.update", "src/aspsim/array.py:ArrayCollection.setup_ir", "src/aspsim/simulator.py:Propagator.propagate", "src/aspsim/simulator.py:Signals"]}
{"id": "C112", "title": "A second run continues the sources and keeps the recordings", "statement": "Calling run_simulation again on the same simulator leaves everything recorded by the diagnostics of the first run unchanged and exports nothing a second time; the free sources continue with the samples that follow those of the first run.", "quantifier": "every completed run of every configuration, with diagnostics whose save intervals lie within the run, and every second run that completes", "why_tests_cant": "Needs the state of every interval counter and every source after an arbitrary complete run; a test sees one length and one set of diagnostics.", "anchors": ["src/aspsim/simulator.py:Simulator.run_simulation", "src/aspsim/diagnostics/core.py:Logger", "src/aspsim/diagnostics/core.py:IntervalCounter", "src/aspsim/array.py:FreeSourceArray.get_samples"]}
{"id": "C113", "title": "Directional microphones are simulated", "statement": "A microphone array that is accepted with a directivity other than omni is simulated with it: the impulse responses of each microphone have its directivity, pointing in its direction.", "quantifier": "every microphone array with any directivity types and directions, every source array, every path type", "why_tests_cant": "Ranges over all arrays, directions and path types; the tests only use omnidirectional microphones.", "anchors": ["src/aspsim/array.py:Array.__init__", "src/aspsim/room/roomimpulseresponse.py:ir_room_image_source_3d", "src/aspsim/array.py:ArrayCollection.setup_ir"]}
{"id": "C114", "title": "Cardioid from two microphones", "statement": "The signal computed from a main and a secondary microphone at a distance d behaves as a cardioid microphone: plane waves from the direction of the main microphone pass unchanged, those from the opposite direction are cancelled, the response is strongest in the direction of the main microphone, and the output is aligned with the inputs.", "quantifier": "every distance, speed of sound, set of frequencies, direction of a plane wave, lower limit filter_below and filter order", "why_tests_cant": "Statement about a continuum of directions and frequencies.", "anchors": ["src/aspsim/room/directional.py"]}
{"id": "C115", "title": "Reading audio files", "statement": "load_audio_file returns the first num_channels channels of the file (all of them by default) at the desired samplerate (that of the file by default); it refuses to raise the samplerate.", "quantifier": "every file with any number of channels and samplerate, every desired samplerate, every number of channels", "why_tests_cant": "Ranges over all files and argument combinations; there is no test of it, and the defaults interact.", "anchors": ["src/aspsim/signal/sources.py:load_audio_file"]}
{"id": "C116", "title": "Metadata is added, not lost", "statement": "After any number of additions to the metadata of a simulation the file contains every key with the value added last, and keeps all keys that were there before; the metadata of every processor is found under its name.", "quantifier": "every content of the file, every sequence of dictionaries, every list of processors", "why_tests_cant": "Claim about arbitrary sequences of additions and their effect on what was stored before.", "anchors": ["src/aspsim/saveloadsession.py:add_to_sim_metadata", "src/aspsim/saveloadsession.py:write_processor_metadata"]}
{"id": "C117", "title": "Several sources joined to one", "statement": "A SourceArray of any number of sources with given amplitudes delivers the channels of all of them in order, whatever the request sizes, and can be used as the source of an array.", "quantifier": "every number of sources, every kind of source, every sequence of requests", "why_tests_cant": "Ranges over all numbers and kinds of sources and all splits of the requests.", "anchors": ["src/aspsim/signal/sources.py:SourceArray", "src/aspsim/array.py:FreeSourceArray.set_source"]}
{"id": "C118", "title": "The figure shows the paths of moving arrays", "statement": "create_simulator draws, for every moving array, the path that it takes during the simulation, and creating a simulator does not fail because of the figure.", "quantifier": "every trajectory (linear with constant speed or equal times, circular, given by a function, collections of them), every length of the simulation", "why_tests_cant": "Relates the drawn points to the movement for every trajectory and every number of samples.", "anchors": ["src/aspsim/array.py:ArrayCollection.plot", "src/aspsim/room/trajectory.py:LinearTrajectory.plot", "src/aspsim/room/trajectory.py:CircularTrajectory.plot", "src/aspsim/simulator.py:SimulatorSetup.create_simulator"]}
{"id": "C119", "title": "Arrays and paths are described in the metadata files", "statement": "With a figure folder, create_simulator writes files in which every array is described by its class, number of elements, groups, movement, region, current source and positions, and every pair of arrays by the type of its path and the parameters of its image sources.", "quantifier": "every set of arrays with every kind of source, every set of path types, every name", "why_tests_cant": "Ranges over all collections, sources and names; a value that cannot be written or a name that occurs twice shows up only for particular ones.", "anchors": ["src/aspsim/array.py:ArrayCollection.save_metadata", "src/aspsim/array.py:ArrayCollection.setup_ir", "src/aspsim/array.py:Array.__init__", "src/aspsim/signal/sources.py"]}
{"id": "C120", "title": "A longer simulation starts like a shorter one", "statement": "Two simulations that differ only in their length produce the same signals, the same recordings and the same exported files up to the end of the shorter one: tot_samples decides when a run stops, not what happens before.", "quantifier": "every pair of lengths, every set of arrays, sources, paths, processors and diagnostics", "why_tests_cant": "Relates two runs of arbitrary length for every setup.", "anchors": ["src/aspsim/simulator.py:Simulator.run_simulation", "src/aspsim/configutil.py:SimulatorInfo"]}
{"id": "C121", "title": "Playing everything later delays the microphones", "statement": "If every source plays the same signals d samples later, with zeros before, then every microphone and every contribution of a source records the same signals d samples later, for arrays that stand still and no processor.", "quantifier": "every d, every set of standing arrays, every source signal, every set of paths, all time indices", "why_tests_cant": "Compares all samples of two runs for every delay; the block and buffer boundaries fall at different places in the two runs.", "anchors": ["src/aspsim/simulator.py:Propagator", "src/aspsim/simulator.py:Simulator.run_simulation"]}
{"id": "C122", "title": "Microphones at the same place record the same signal", "statement": "Two microphones which are at the same place at every update of the arrays record the same signal, whether they belong to the same array or not, whatever other microphones there are, and whether their arrays stand still or move, if the paths to them are of the same type, image-source or none.", "quantifier": "every room simulation that is a function of the two positions, every set of arrays and trajectories, every pair of microphones, all time indices", "why_tests_cant": "Equality of all samples for every assignment of microphones to arrays; batches of microphones and updates are handled array by array.", "anchors": ["src/aspsim/array.py:ArrayCollection.setup_ir", "src/aspsim/array.py:ArrayCollection.update_path", "src/aspsim/room/roomimpulseresponse.py:PathGenerator.create_path", "src/aspsim/simulator.py:Propagator"]}
{"id": "C123", "title": "Saving the contributions of the sources only observes", "statement": "Switching save_source_contributions off in a simulation that completes leaves all other signals, the processor, the diagnostics and the exported results as they are, if processor and diagnostics do not use the contribution signals.", "quantifier": "every set of arrays, sources, paths, processors and diagnostics, any number of samples", "why_tests_cant": "Relates all samples of two runs for every setup, including the feedback through the processor.", "anchors": ["src/aspsim/simulator.py:Propagator", "src/aspsim/simulator.py:Simulator.run_simulation", "src/aspsim/configutil.py:SimulatorInfo"]}
{"id": "C124", "title": "A longer maximal length of the responses changes nothing", "statement": "If no response of the room is longer than max_room_ir_length, any other max_room_ir_length that is not less than the longest response gives the same signals, diagnostics and exported results; the impulse responses only get zeros at the end (no random paths, no high-pass filter).", "quantifier": "every pair of lengths, every room, every set of arrays, trajectories, sources, processors and diagnostics", "why_tests_cant": "Relates all samples of two runs for every pair of lengths, with responses regenerated at every update.", "anchors": ["src/aspsim/room/roomimpulseresponse.py:PathGenerator.create_path", "src/aspsim/array.py:ArrayCollection.setup_ir", "src/aspsim/configutil.py:SimulatorInfo"]}
{"id": "C125", "title": "A trajectory that stays is the same as none", "statement": "Arrays whose trajectory stays where it starts give the same signals, impulse responses, diagnostics and exported results as arrays without trajectory, whatever array_update_freq is in either simulation, if the paths are not random.", "quantifier": "every room, every set of arrays, sources, processors and diagnostics, every pair of update frequencies", "why_tests_cant": "Relates all samples of two runs; the first one regenerates impulse responses and filters at every update, the second one never.", "anchors": ["src/aspsim/array.py:ArrayCollection.update", "src/aspsim/array.py:Array.update", "src/aspsim/simulator.py:Propagator"]}
{"id": "C126", "title": "A region array records what microphones at its grid points record", "statement": "A region array has its microphones at the equally spaced points of its region, in this order; with several regions there is one group for each, holding the microphones of its grid. If positions are given, it is the microphone array with these positions. An empty list of regions and regions that cannot be combined are refused in any case. A simulation with the region array gives the same signals, impulse responses, diagnostics, exported results and exceptions as one with a microphone array given these points.", "quantifier": "every region or list of regions, every room, every set of other arrays, trajectories, sources, processors and diagnostics", "why_tests_cant": "Relates the outcome of two simulations for every region and every setup, with responses regenerated at every update.", "anchors": ["src/aspsim/array.py:RegionArray", "src/aspsim/array.py:Array", "src/aspsim/room/region.py:CombinedRegion"]}
{"id": "C127", "title": "A silent source changes nothing", "statement": "Leaving out sources that deliver only zeros, and loudspeakers to which the processor writes only zeros, leaves all other signals, impulse responses, the processor, the diagnostics and the exported results as they are, as long as another source is left, processor and diagnostics do not use the signals of these sources, and no path is random. Sequences with zero audio and white noise with power zero are such sources.", "quantifier": "every room, every set of arrays, trajectories, sources, processors and diagnostics, any number of samples", "why_tests_cant": "Relates all samples of two runs for every setup, with feedback through the processor and responses regenerated at every update.", "anchors": ["src/aspsim/simulator.py:Propagator", "src/aspsim/array.py:ArrayCollection.update", "src/aspsim/signal/sources.py:Sequence", "src/aspsim/signal/sources.py:WhiteNoiseSource"]}
{"id": "C128", "title": "A simulation can be given the impulse responses of another one", "statement": "Take impulse responses from a prepared simulation and set them as propagation paths in a new setup with the same arrays. The new simulation gives the same signals, filters, impulse responses, processor, diagnostics and exported results, whatever the state of the random generators, so also random responses can be kept. The arrays of these paths must not move (otherwise the first update raises), and the remaining paths must not be random.", "quantifier": "every room, every set of arrays and path types, every selection of pairs of arrays at rest, all states of the random generators, any number of samples", "why_tests_cant": "Relates all samples of two runs with different random states for every selection of paths.", "anchors": ["src/aspsim/array.py:ArrayCollection.set_prop_path", "src/aspsim/array.py:ArrayCollection.set_default_path_type", "src/aspsim/array.py:ArrayCollection.setup_ir", "src/aspsim/array.py:ArrayCollection.update_path"]}
{"id": "C129", "title": "A simulation loaded from a session repeats the one that wrote it", "statement": "Load a saved session with load_from_path and create a simulator from it. The new simulator has the same arrays, impulse responses and sources as the one that wrote the session, and running it gives the same signals, diagnostics and exported results, whatever the state of the random generators.", "quantifier": "every configuration, every set of arrays and path types, all states of the random generators, any number of samples", "why_tests_cant": "A test compares single sessions; the claim relates two complete runs for every setup, including moving arrays.", "anchors": ["src/aspsim/simulator.py:SimulatorSetup.load_from_path", "src/aspsim/simulator.py:SimulatorSetup.create_simulator", "src/aspsim/saveloadsession.py:load_from_path", "src/aspsim/array.py:ArrayCollection.set_default_path_type", "src/aspsim/array.py:ArrayCollection.update_path"]}
{"id": "C130", "title": "How loudspeakers and microphones are grouped into arrays does not matter", "statement": "Take a simulation with free sources, paths of type ism or none and no processor. A microphone records the sum of the single loudspeakers, each convolved with the response between the places of the two at the last update of the arrays. So putting the same loudspeakers and microphones into other arrays, giving the arrays other names or adding them in another order does not change what is recorded.", "quantifier": "all sets of arrays with any numbers of loudspeakers and microphones, standing or moving, all source signals, with and without warm-up, any number of samples, every image-source method whose responses depend on the two places only", "why_tests_cant": "A test compares a few groupings of a few loudspeakers; the claim ranges over every way to split the same loudspeakers into arrays, and over every signal.", "anchors": ["src/aspsim/simulator.py:Propagator.propagate", "src/aspsim/array.py:ArrayCollection.update", "src/aspsim/array.py:ArrayCollection.setup_ir"]}
{"id": "C131", "title": "The block size of a processor is a latency and nothing else", "statement": "A processor that plays a sound source in blocks, like the example processor, lets its loudspeakers be silent for block_size samples and then play the sound. A processor that runs a fixed control filter, like the noise control examples without adaptation, lets its loudspeakers be silent for block_size samples and then play the reference microphone signal filtered and block_size samples late. What the microphones record is the same as if the filter had no latency and the paths from the loudspeakers started with block_size zeros.", "quantifier": "all block sizes, buffer and chunk sizes, all sources and control filters, all other arrays, sources and paths, feedback from the loudspeakers to the reference microphones included, with and without warm-up, any number of samples", "why_tests_cant": "A test runs a few block sizes and signals; the claim is about every block size and every signal, across all buffer resets and with feedback.", "anchors": ["src/aspsim/simulator.py:Simulator.run_simulation", "src/aspsim/processor.py:AudioProcessor.process", "examples/example_processor.py:PlaySoundProcessor.process", "examples/anc_processors.py:TDANCProcessor.gen_speaker_signals"]}
{"id": "C132", "title": "A closed loop with a fixed control filter is linear in the sources", "statement": "With a processor that runs a fixed control filter from reference microphones to loudspeakers, feedback from the loudspeakers to those microphones included, playing a times one set of source sounds plus b times another gives in every signal of the simulation - sources, loudspeakers, microphones, and the contribution of each source to each microphone - a times the first simulation plus b times the second, sample by sample. With silent sources everything is silent: the loop makes no sound of its own.", "quantifier": "all source sounds and factors, all control filters, block, buffer and chunk sizes, all arrays and paths including paths that change while arrays move, with and without warm-up, any number of samples, stable and unstable loops alike", "why_tests_cant": "A test compares three runs for a few sounds; the claim is about all sounds and about a feedback loop, where an error made once circulates for ever.", "anchors": ["src/aspsim/simulator.py:Simulator.run_simulation", "src/aspsim/processor.py:AudioProcessor.process", "examples/anc_processors.py:TDANCProcessor.gen_speaker_signals"]}
{"id": "C133", "title": "A noise control system has the transfer function theory gives it", "statement": "With standing arrays and a fixed control filter W between reference microphones and loudspeakers, the signal at any microphone is that of the linear system with the direct paths P, the reference paths Q, the loudspeaker paths S, the feedback paths F and a delay by block_size samples: sent through the determinant of 1 - X^bs F W it equals the source sounds sent through det * P + X^bs S W adj Q. For one reference microphone without feedback that is P + X^bs S W Q. Where this vanishes for all sources, the microphone is exactly silent from the first sample on.", "quantifier": "all control filters, numbers of reference microphones, loudspeakers and sources, all paths with and without feedback, block, buffer and chunk sizes, all source sounds, any number of samples", "why_tests_cant": "A test compares one system with a precomputed response; the claim is an identity in all filters and sounds, and silence is claimed exactly rather than up to a tolerance.", "anchors": ["src/aspsim/simulator.py:Simulator.run_simulation", "src/aspsim/processor.py:AudioProcessor.process", "examples/anc_processors.py:TDANCProcessor.gen_speaker_signals"]}
{"id": "C134", "title": "The FxLMS update is the gradient of the energy at the error microphones", "statement": "Without normalization, what the FxLMS processor multiplies with its step size and subtracts from the control filter is half the derivative of the energy the error microphones record over the update block. Exactly: for two runs of one scene without feedback to the reference microphones that differ in the control filter only, the energy in the second run is the energy in the first, plus twice the inner product of the difference of the taps with the computed update of the first run, plus the energy of the difference signal. The path given to the processor is the simulated path, and the reference is delayed by block_size.", "quantifier": "all control filters, numbers of reference microphones, loudspeakers and error microphones, all paths, source sounds, block sizes, filter lengths and update blocks that fit in the buffer", "why_tests_cant": "A test can compare one update with a finite difference up to a tolerance; that the filtered reference, the flipped windows and the delay by the block size fit together for every scene is an identity over all signals.", "anchors": ["examples/anc_processors.py:FxLMS.update_filter", "examples/anc_processors.py:FxLMS.__init__", "examples/anc_processors.py:TDANCProcessor.gen_speaker_signals", "src/aspsim/simulator.py:Simulator.run_simulation"]}
{"id": "C135", "title": "A normalized FxLMS step does not overshoot", "statement": "With normalization 'sample' or 'block', a positive beta and a step size between 0 and 2, the update makes the control filter no worse on the samples it was computed from: had the simulation been run with the updated filter, the energy at the error microphones over the update block would not be larger. Without normalization the same holds if the step size is at most two over the energy of the filtered reference.", "quantifier": "all scenes without feedback, control filters, source sounds, update blocks, step sizes in the range, positive beta", "why_tests_cant": "Stability is only observed for the signals and step sizes that are simulated; the bound on the step size has to hold for the worst signals.", "anchors": ["examples/anc_processors.py:FxLMS.update_filter"]}
{"id": "C136", "title": "The power summaries of diagnosticsummary report the mean power of the range", "statement": "A SignalPowerSummary or SignalPowerRatioSummary made for the range (a, b) exports at b the mean, over the selected channels and the samples a to b-1, of the squared signal (the ratio of two such means), however the range is split over the blocks.", "quantifier": "all ranges, channel selections, signals, splits of the range into saved pieces", "why_tests_cant": "A test uses one block size; and the classes are never constructed in the repository's tests, so nothing there shows whether they work at all.", "anchors": ["src/aspsim/diagnostics/diagnosticsummary.py:SummaryDiagnostic.__init__", "src/aspsim/diagnostics/diagnosticsummary.py:SignalPowerSummary.save", "src/aspsim/diagnostics/diagnosticsummary.py:SignalPowerRatioSummary.save", "src/aspsim/diagnostics/diagnosticsummary.py:SignalPowerRatioSummary.get_output", "src/aspsim/diagnostics/core.py:Diagnostic.__init__"]}
{"id": "C137", "title": "mean_near_time_idx averages the last 3000 samples before the time index", "statement": "For every output and time index t, mean_near_time_idx gives the mean of the values that are not nan among the up to 3000 samples before t.", "quantifier": "all outputs, numbers of channels, patterns of nan, time indices within the recording", "why_tests_cant": "The window has a boundary case for every time index below its length.", "anchors": ["src/aspsim/diagnostics/diagnosticsummary.py:mean_near_time_idx"]}
{"id": "C138", "title": "add_to_summary keeps the last values of every diagnostic", "statement": "After any sequence of calls the summary file of a time index contains for each diagnostic the values of the last call with its name and that time index, and everything else it contained before; no other file is touched.", "quantifier": "all sequences of calls, names, values, time indices, existing files", "why_tests_cant": "All orders of calls.", "anchors": ["src/aspsim/diagnostics/diagnosticsummary.py:add_to_summary"]}
{"id": "C139", "title": "four_equidistant_rectangles spreads the points over four squares", "statement": "four_equidistant_rectangles returns num_points points. Seen from above and before moving them outwards they are evenly spaced along the square of the given side length; in the returned order, pairs of points are alternately at z_low and z_high, and the second of each pair is moved outwards, at a right angle to its side, onto the square that is larger by side_offset on every side. It never raises for positive side lengths.", "quantifier": "all numbers of points from 2 on, side lengths, offsets and heights for which side_length / num_points exceeds the tolerance of np.isclose", "why_tests_cant": "The corners and every number of points modulo four are different cases, and the code decides by tolerance on which side a point is.", "anchors": ["src/aspsim/room/generatepoints.py:four_equidistant_rectangles"]}
{"id": "C140", "title": "A written configuration can be read again", "statement": "The config.yaml that create_simulator writes into a figure folder or into a stored session is read back by load_from_file as the same configuration. Creating the same simulation again with the same session folder finds the stored session; no configuration that create_simulator accepts makes later calls fail. Files that describe an inconsistent room or an unknown default type are refused, and a stored session is used again only if its audio parameters, and with simulated rooms its room, are the same.", "quantifier": "all values users can put into the fields, including tuples, numpy numbers and numpy arrays at any depth; all contents of the session folder", "why_tests_cant": "The fields accept every Python value, and what YAML writes and reads depends on the types at every depth; a test tries a few values.", "anchors": ["src/aspsim/configutil.py:SimulatorInfo.save_to_file", "src/aspsim/configutil.py:load_from_file", "src/aspsim/configutil.py:equal_audio", "src/aspsim/saveloadsession.py:search_for_matching_session"]}
{"id": "C141", "title": "Periodic sources give periodic microphone signals", "statement": "In a simulation without processors and with arrays that stand still, sources that repeat themselves after T samples give microphone signals and propagated-source signals that repeat themselves after T samples, as soon as the sources have played as many samples as the longest room impulse response; with start_sources_before_0 and a buffer at least that long, from the first sample on.", "quantifier": "all buffer and chunk sizes, all numbers of arrays and channels, all responses, all periods (also periods that have nothing to do with the chunk size), all times", "why_tests_cant": "The steady state has to hold at every time, including where the buffers are shifted; a test compares a few periods of one setup.", "anchors": ["src/aspsim/simulator.py:Propagator.propagate", "src/aspsim/simulator.py:Propagator.prepare", "src/aspsim/simulator.py:Simulator.run_simulation"]}
{"id": "C142", "title": "A pulse train measures the impulse response in force", "statement": "If one channel of one source plays a pulse every T samples and everything else is silent, a microphone records at time t the sample t mod T of the response that is in force at t, provided that response is not longer than T; with start_sources_before_0 the train is shifted by the samples played before 0. This holds for moving arrays as well.", "quantifier": "all buffer and chunk sizes, all setups with static or moving arrays, all responses not longer than T, all times", "why_tests_cant": "Overlap between consecutive pulses, the change of filters and the shift of the buffers could each disturb single samples; a test sees one response.", "anchors": ["src/aspsim/simulator.py:Propagator.propagate", "src/aspsim/simulator.py:Simulator", "src/aspsim/simulator.py:Simulator.run_simulation"]}
{"id": "C143", "title": "FxLMS plays what the filtered-x LMS recursion says", "statement": "In a simulation with the processor FxLMS the loudspeaker signals of the whole run are a function of what the reference and error microphones record: silence for one block, then the reference, one block late, through the control filter; the control filter starts at zero and after every update_block_size samples the step size times the gradient of the last update_block_size samples is subtracted, computed with the reference filtered by the secondary paths (and delayed by one block) and with the chosen normalization. The taps of the control filter after k samples are those of this recursion.", "quantifier": "all reference and error signals, all numbers of microphones and loudspeakers, all filter and path lengths, block sizes, update block sizes that are multiples of them, buffer and chunk sizes, all normalizations, every time index of the run", "why_tests_cant": "An adaptive filter feeds its mistakes back: a sample filtered twice, left out or shifted by one block changes every later tap. The state is carried through buffers that are shifted at chunk ends, so one comparison with a reference implementation settles one alignment of blocks, updates and chunks.", "anchors": ["examples/anc_processors.py:FxLMS", "examples/anc_processors.py:TDANCProcessor", "examples/anc_processors.py:FxLMS.update_filter", "src/aspsim/simulator.py:Simulator.run_simulation"]}
{"id": "C144", "title": "An adaptive filter does not depend on chunk and buffer size", "statement": "Two simulations with the processor FxLMS that differ only in sim_chunk_size and sim_buffer (both large enough for the processor, start_sources_before_0 False) produce the same samples of all array signals and leave the processor in the same state at every step.", "quantifier": "all setups, parameters of the processor, chunk and buffer sizes, numbers of steps", "why_tests_cant": "FxLMS looks back over the buffer and writes into the past of its own signal, so C02 does not apply; each test runs one pair of sizes.", "anchors": ["examples/anc_processors.py:FxLMS.prepare", "examples/anc_processors.py:FxLMS.update_filter", "src/aspsim/simulator.py:Propagator.prepare", "src/aspsim/simulator.py:Simulator.run_simulation"]}
{"id": "C145", "title": "Circles of points are turned against each other as requested", "statement": "concentrical_circles turns circle i as angle_offset says: by the drawn part of a full turn for 'random', not at all for 'same' (with one radius, circles with equally many points are exactly above each other), by less than a tenth of the angle between two points for 'almostSame', by i/num_circles of this angle for 'distribute'. With 'distribute' and num_points a multiple of num_circles the points are, seen from above, in num_points equidistant directions, one in each.", "quantifier": "all numbers of circles and at least as many points, all radii or ranges of radii, distances and random draws", "why_tests_cant": "The angles depend on the number of points, the number of circles and the remainder; a test looks at one combination.", "anchors": ["src/aspsim/room/generatepoints.py:concentrical_circles", "src/aspsim/room/generatepoints.py:equiangular_circle"]}
{"id": "C146", "title": "The equivalent delay of a path is the centre of its energy", "statement": "equivalent_delay(ir) returns for each pair the centre of gravity of the energy of its impulse response, the only d with sum (k-d) ir[k]^2 = 0. It is k for a single impulse at k, grows by n when the response comes n samples later, does not depend on the amplitude or on zeros after the end, and lies between the first and the last tap that is not zero. It is nan exactly for a response that is zero everywhere.", "quantifier": "all arrays of impulse responses of any shape, all shifts, amplitudes and paddings", "why_tests_cant": "A test compares the number for one response; how it changes with delay, gain and length for every response is a statement about all of them.", "anchors": ["examples/anc_processors.py:equivalent_delay"]}
{"id": "C147", "title": "FastBlockFxLMS does what FxLMS with block normalization does", "statement": "A simulation with FastBlockFxLMS gives the same samples of every signal and the same control filter at every time as the same simulation with FxLMS, normalization='block' and update_block_size equal to the filter length.", "quantifier": "all scenes with a reference, an error and a loudspeaker array, all numbers of channels, sources, paths (moving or not), block sizes, filter lengths, step sizes, regularisations, buffer and chunk sizes, all run lengths", "why_tests_cant": "Two different algorithms, one in the time domain and one with circular convolutions of blocks, are claimed to be exactly equivalent over whole closed-loop runs; a test compares two finite runs up to rounding.", "anchors": ["examples/anc_processors.py:FxLMS", "examples/anc_processors.py:FastBlockFxLMS"]}
{"id": "C148", "title": "Microphones and adaptive filter close the loop", "statement": "In a simulation with the processor FxLMS every microphone records, at every time, the sum over all sources of their signals through the room impulse responses in force at that time, where the free sources play their streams and the loudspeakers play the recorded reference, one block late, through the taps that the filtered-x LMS recursion gives for the recorded errors and the filtered reference as the processor stores it (see C143); with save_source_contributions every propagated-source signal is the part of one source. So the recorded signals solve the equations of the closed loop.", "quantifier": "all scenes with a reference, an error and a loudspeaker array, all further arrays, numbers of channels, streams, paths (moving arrays included), parameters of the adaptive filter, buffer and chunk sizes, with and without start_sources_before_0, all run lengths", "why_tests_cant": "The recorded signals are fed back through the filter for the whole run; a test checks a finite run of one scene and one setting.", "anchors": ["src/aspsim/simulator.py:Propagator", "examples/anc_processors.py:FxLMS"]}
{"id": "C149", "title": "Step size zero and silence leave the room alone", "statement": "With step_size 0 the control filter of FxLMS stays at zero, its loudspeakers are silent at every time and every microphone hears exactly what it would hear without processors. With any step size and, if there is a normalization, a positive beta: if the free sources are silent, all microphones and loudspeakers stay silent and the filter stays at zero: the loop does not start by itself.", "quantifier": "all scenes as in C148, all paths including feedback from the loudspeakers to the reference microphones, all normalizations with positive beta, all run lengths", "why_tests_cant": "A statement about all times of a feedback system; unstable loops show only for some paths and long runs.", "anchors": ["examples/anc_processors.py:FxLMS", "src/aspsim/simulator.py:Propagator"]}
{"id": "C150", "title": "Bounded sources give bounded recordings", "statement": "In a simulation without processors, if no sample of a free source is larger than M in magnitude, no microphone sample is larger than M times the sum of the magnitudes of the impulse response samples in force that lead to it, and no propagated-source sample is larger than M times this sum for its source.", "quantifier": "all arrays, streams, paths (moving arrays included), buffer and chunk sizes, run lengths", "why_tests_cant": "A bound over all inputs and times; tests sample inputs, which hardly reach the worst case.", "anchors": ["src/aspsim/simulator.py:Propagator"]}
{"id": "C151", "title": "Diagnostics of an adaptive run", "statement": "In a simulation with the processor FxLMS that runs to its end, a RecordSignal diagnostic of any array holds, at every time index of its save_at, exactly the sample the simulation produced and nan elsewhere; its exports happen at exactly the requested indices, in order and once, and hand over exactly the saved samples before that index. SignalPower holds the mean square over the channels of these samples and exports them in the same way. RecordFilter exports, and RecordState saves, the control filter with precisely the taps of the filtered-x LMS recursion after the updates made up to that time index, and a recording of the loudspeakers is the reference through these taps.", "quantifier": "all scenes with FxLMS, all further arrays, sets of diagnostics with distinct names, save intervals, export indices and frequencies, channels, parameters of the filter, buffer and chunk sizes, run lengths", "why_tests_cant": "Blocks of the processor, chunks of the simulator, save intervals and export indices interleave in unboundedly many ways; a test fixes one combination.", "anchors": ["examples/anc_processors.py:FxLMS", "src/aspsim/diagnostics/core.py:Logger", "src/aspsim/diagnostics/diagnostics.py:RecordSignal", "src/aspsim/diagnostics/diagnostics.py:SignalPower", "src/aspsim/diagnostics/diagnostics.py:RecordFilter"]}
{"id": "C152", "title": "Louder sources with an adaptive filter", "statement": "Take two simulations with the processor FxLMS of the same scene, where the sources of the second play a nonzero factor times what they play in the first, and where beta is multiplied by the square of the factor (with a normalization) or the step size is divided by it (without one). Then at every time index every sample of every microphone, loudspeaker and contribution signal of the second simulation is that factor times the one of the first, and the control filters have exactly the same taps. In particular turning the sign of all sources turns the sign of all signals and leaves the filter as it is.", "quantifier": "all scenes with FxLMS, all sources, factors, moving arrays, normalizations, parameters, block and buffer sizes, with and without start_sources_before_0, all time indices", "why_tests_cant": "The filter is adapted by products of recorded signals, so a change of the level acts on everything that follows; a test compares two levels for one scene and one run length.", "anchors": ["examples/anc_processors.py:FxLMS", "src/aspsim/simulator.py:Propagator"]}
{"id": "C153", "title": "The older generator of points on a rectangle", "statement": "equidistant_rectangle_old returns exactly num_points points, all on the perimeter of the rectangle, in order along the perimeter and separated by circumference/num_points.", "quantifier": "every num_points, side lengths, offset in [0,1], height", "why_tests_cant": "Real-valued parameters; how many points fall on each side depends on all of them.", "anchors": ["src/aspsim/room/generatepoints.py:equidistant_rectangle_old"]}
{"id": "C154", "title": "Points on a rectangle for few loudspeakers", "statement": "equidistant_rectangle_for_fewer returns exactly num_points points, all on the perimeter of the rectangle whatever the random numbers are; from four points on they are separated by circumference/num_points.", "quantifier": "every num_points, side lengths, draws of the random generator", "why_tests_cant": "The points depend on random numbers; boundary draws such as 0 hardly ever occur in a test.", "anchors": ["src/aspsim/room/generatepoints.py:equidistant_rectangle_for_fewer"]}
{"id": "C155", "title": "The order of the channels within the arrays does not matter", "statement": "If the positions within the arrays are listed in another order, the channels of the source signals with them, then every microphone channel and every contribution of the new simulation is that of the old one at the same position, at every time index. With the adaptive filter FxLMS, whose secondary paths are renumbered alike, this also holds for the loudspeaker signals and the control filters.", "quantifier": "every permutation of the channels of every array, every scene with or without the adaptive filter, every impulse response, source stream and length of the run", "why_tests_cant": "There are factorially many orders, and a swapped index is invisible in the symmetric scenes tests use; with adaptation the effect feeds back through the whole run.", "anchors": ["src/aspsim/simulator.py:propagate", "examples/anc_processors.py:FxLMS.update_filter", "src/aspsim/array.py:setup_ir"]}
{"id": "C156", "title": "With an adaptive filter, too, playing everything later delays everything", "statement": "Take a simulation with the processor FxLMS whose arrays stand still and whose sources start at time 0, and a second one where every source plays zeros for a whole number of update blocks first. Then in the second simulation all microphone, loudspeaker and contribution signals are zero for that time and afterwards those of the first one, and the control filters are the same after as many more steps.", "quantifier": "every scene with FxLMS and standing arrays, every source, delay by whole update blocks, block and update block size, normalization, length of the run", "why_tests_cant": "The filter keeps state for the whole run; whether its very first block is treated like any other only shows in a comparison of two runs, for every choice of sizes and paths.", "anchors": ["examples/anc_processors.py:FxLMS.update_filter", "examples/anc_processors.py:FxLMS.prepare", "src/aspsim/simulator.py:propagate"]}
{"id": "C157", "title": "A valid scene with an adaptive filter runs to its end", "statement": "If the arrays have distinct names, the sources can deliver samples, every impulse response has the shape (sources, microphones), the processor FxLMS was made for the channels of the arrays, buffer, chunk, block, update block and filter length fit together, and the diagnostics name existing signals, channels and readable properties of the control filter, then run_simulation returns without an exception.", "quantifier": "every valid scene with FxLMS, every secondary path, normalization (the denominator never zero), every list of diagnostics of any class that do not record the processor's own signal, every number of samples", "why_tests_cant": "The processor reads and writes slices of several buffers at positions that depend on buffer, chunk, block and update block size; a run can fail at any step, at a save or at an export.", "anchors": ["examples/anc_processors.py:FxLMS.process", "examples/anc_processors.py:FxLMS.prepare", "src/aspsim/simulator.py:Simulator.run_simulation", "src/aspsim/diagnostics/core.py:Logger.save_data"]}
{"id": "C158", "title": "The two image-source functions agree", "statement": "ir_room_image_source_3d_orig, called with the reverberation time, gives the same impulse responses as the ism paths of a simulator with the same room, speed of sound, delay and response length and without high-pass filter, and metadata with the same truncation errors, order, absorption and smallest and largest measured reverberation time. Without sources or without microphones it raises ValueError.", "quantifier": "every room, reverberation time, number and place of sources and omnidirectional microphones, every image-source package", "why_tests_cant": "Needs the calculation in batches of 500 microphones and every number of positions; a test compares a few.", "anchors": ["src/aspsim/room/roomimpulseresponse.py:ir_room_image_source_3d_orig", "src/aspsim/room/roomimpulseresponse.py:ir_room_image_source_3d", "src/aspsim/room/roomimpulseresponse.py:PathGenerator.create_path"]}
{"id": "C159", "title": "FastBlockFxLMS gives the same exports as FxLMS", "statement": "Replacing FxLMS (block normalization, updates after as many samples as the filter has taps) by FastBlockFxLMS with the same arguments, for secondary paths that with the block delay are not longer than the control filter and a buffer that is a multiple of the filter length of sufficient size, a simulation that runs to its end still does, exports the same files at the same times with the same content, and ends with the same recordings. Every such valid scene runs to its end.", "quantifier": "every scene, signals, secondary paths, block and filter lengths as stated, every list of diagnostics of signals or of the control filter, every number of samples", "why_tests_cant": "The two processors share almost no code for the update; agreement has to hold at every update and the diagnostics read both over the whole run.", "anchors": ["examples/anc_processors.py:FastBlockFxLMS", "examples/anc_processors.py:FxLMS", "src/aspsim/simulator.py:Simulator.run_simulation", "src/aspsim/diagnostics/core.py:Logger"]}
{"id": "C160", "title": "The sound field image shows each value at its microphone", "statement": "For microphones on a rectangular grid, given in any order, the exported sound field image shows the value of every microphone at the coordinates of this microphone: the point lies in the pixel with its value.", "quantifier": "every rectangular grid of microphones, every order of them, every values", "why_tests_cant": "Off-by-half-a-pixel placements and flipped axes depend on the number and spacing of rows and columns; a test compares one picture by eye.", "anchors": ["src/aspsim/diagnostics/soundfieldplot.py:sf_plot", "src/aspsim/diagnostics/plot.py:soundfield"]}
{"id": "C161", "title": "compare_soundfields shows one image for each algorithm and axis", "statement": "Called with positions on a grid, a list with one array (axes, points) for each algorithm, labels, and optionally arrays to plot, compare_soundfields draws one image for each algorithm and axis, which shows the sound field of this algorithm and axis.", "quantifier": "every grid of positions, every number of algorithms, axes and labels, every values, with and without further arrays", "why_tests_cant": "The function has no test, and whether any call at all gives the documented figure is a question about all shapes of the argument.", "anchors": ["src/aspsim/diagnostics/soundfieldplot.py:compare_soundfields"]}
{"id": "C162", "title": "size_of_2d_plot is the extent of all points", "statement": "The reported width and height are the largest differences of the first and of the second coordinates of any two points of all arrays; without any point an error is raised.", "quantifier": "every list of arrays of points, also empty ones", "why_tests_cant": "It is a statement about all pairs of points in all arrays.", "anchors": ["src/aspsim/diagnostics/soundfieldplot.py:size_of_2d_plot"]}
{"id": "C163", "title": "Points in space seen from above are drawn exactly once", "statement": "plot_3d_in_2d draws every point exactly once. The heights in the labels increase, every line has points, and a line has exactly the points whose height agrees with its label to four decimals; points of the same height are in the same line.", "quantifier": "every list of points with three coordinates", "why_tests_cant": "Rounding decides to which line a point belongs; that no point is lost or drawn twice has to hold for all heights, also near ties.", "anchors": ["src/aspsim/diagnostics/plot.py:plot_3d_in_2d"]}
{"id": "C164", "title": "A correctly described room simulation is set up and runs to its end", "statement": "Arrays with distinct names and at least one channel are added, then paths and path types are set by any calls; every pair of a source and a microphone gets a path of the right shape or a type of propagation that can be generated ('none', 'random', 'direct' with equal numbers, 'ism' in three dimensions with omnidirectional microphones), and moving pairs get no fixed path. Then creating the simulator gives every pair an impulse response of its shape, and the simulation with sizes that fit together, a processor that does not raise, and fitting diagnostics runs to its end without an exception.", "quantifier": "every arrays and trajectories, every sequence of set_path and path type calls, every room, every update interval, all admissible sizes, every well-behaved processor and every list of fitting diagnostics", "why_tests_cant": "Whether some combination of path types, moving arrays and update times makes the generation or a later update fail is a question about all setups and all steps.", "anchors": ["src/aspsim/simulator.py:create_simulator", "src/aspsim/simulator.py:run_simulation", "src/aspsim/array.py:setup_ir", "src/aspsim/array.py:update", "src/aspsim/room/roomimpulseresponse.py:create_path"]}
{"id": "C165", "title": "A simulation with FxLMS that runs through also runs through with more samples", "statement": "If a valid simulation with the processor FxLMS runs to its end, the same simulation with a larger tot_samples also runs to its end.", "quantifier": "every valid scene with FxLMS, block not longer than a chunk, every buffer and chunk size, filter length, update block size, every pair of numbers of samples, every list of fitting diagnostics that do not record the processor's own signal", "why_tests_cant": "Where an update falls in the buffer depends on the common multiples of update_block_size and sim_chunk_size; a test with any fixed number of samples can pass although a later update raises (with the sizes of the shipped example at sample 150016).", "anchors": ["examples/anc_processors.py:update_filter", "src/aspsim/simulator.py:run_simulation", "src/aspsim/configutil.py:SimulatorInfo"]}
{"id": "C166", "title": "The active noise control example runs through in any room", "statement": "Setting up a room with arrays ref, error and loudspeaker, making the processor FxLMS with the impulse responses from the loudspeakers to the error microphones, and running the simulation with the diagnostics of the example raises nothing: every array gets its responses, the sizes of processor, signals and diagnostics agree, all exports are made.", "quantifier": "every room, reverberation time, number and position of microphones, loudspeakers and noise sources, path types, step size, regularization and normalization, every noise, every block size, update block size, filter length and buffer that fit together; for the sizes of the example every number of samples below 150016", "why_tests_cant": "The example is run with one room and one seed; whether shapes agree and every update finds its samples for other numbers of microphones, loudspeakers and samples is a statement about all of them.", "anchors": ["examples/example_active_noise_control.py:main", "examples/anc_processors.py:FxLMS", "examples/anc_processors.py:add_anc_diagnostics"]}
{"id": "C167", "title": "A microphone with a direct path records the source itself", "statement": "In a room simulation with FxLMS and without high-pass filter, a microphone array whose path from one source has type direct, and from all other sources type none, records the samples of that source: at time index t its sample t, or t + sim_buffer - 1 with start_sources_before_0. In the active noise control example the reference signal is the noise.", "quantifier": "every room, every set of arrays (also moving ones), every noise, processor and buffer sizes, every time index", "why_tests_cant": "The claim needs that the identity path stays the identity over all updates of moving arrays and that filters, buffers and the preparation do not shift the signal by one sample; a test compares a few samples of one run.", "anchors": ["examples/example_active_noise_control.py:main", "src/aspsim/array.py:set_path_types", "src/aspsim/simulator.py:propagate"]}
{"id": "C168", "title": "The recorded signals of the active noise control example belong together", "statement": "In the active noise control example the recording sig_error is at every error microphone and time index the sum of sig_primary_noise and sig_secondary_noise; sig_primary_noise is the noise convolved with the responses from the noise source, and sig_secondary_noise is the recording sig_ls convolved with the responses from the loudspeakers to the error microphones that the processor was given.", "quantifier": "every room, number and position of microphones, loudspeakers and noise sources, every noise, every processor setting for which the simulation runs through, every time index; in general every microphone array, one noise source and the loudspeakers, standing still", "why_tests_cant": "It links four recordings made by different diagnostics over all buffer resets with the filters of the room; a test compares them for one run and cannot exclude an offset at a buffer boundary it does not reach.", "anchors": ["examples/anc_processors.py:add_anc_diagnostics", "examples/example_active_noise_control.py:main", "src/aspsim/simulator.py:propagate"]}
{"id": "C169", "title": "FxLMS can be made exactly for block sizes that fit", "statement": "FxLMS can be made if and only if the arrays ref, error and loudspeaker exist and update_block_size is a positive multiple of a positive block_size; it then has the sizes of these arrays. A missing array gives KeyError, block_size 0 ZeroDivisionError, other update block sizes AssertionError.", "quantifier": "every list of arrays, every block size, update block size, filter length, step size, regularization and normalization", "why_tests_cant": "Divisibility of all pairs of block sizes; a test tries a few.", "anchors": ["examples/anc_processors.py:ActiveNoiseControlProcessor", "examples/anc_processors.py:FxLMS"]}
{"id": "C170", "title": "The simplest and the moving source example run and record the source and its sound at the microphone", "statement": "A script that sets up free sources and microphones in a room, adds recordings of their signals and runs the simulation ends without an exception. Afterwards the recording of a source has its samples in order, and the recording of a microphone has the convolution of the samples with the responses from the places at the last update: those given by the user, or else those generated with the type chosen for the path. In particular this holds for example_simplest_simulation.py and example_moving_source.py, wherever the source and the microphone are and however the source moves.", "quantifier": "every room in which impulse responses can be generated, every placement and trajectory, every stream of samples, every buffer of at least four samples, chunk size, length and update interval", "why_tests_cant": "It joins the creation of the simulator, the buffer, the propagation and the recording over all lengths and sizes; running the example checks one of them and does not say whether the samples are right.", "anchors": ["examples/example_simplest_simulation.py", "examples/example_moving_source.py", "src/aspsim/simulator.py:run_simulation", "src/aspsim/diagnostics/diagnostics.py:RecordSignal"]}
{"id": "C171", "title": "In the debug example the log of the processor is the exported recording", "statement": "In example_debug.py the samples that the processor has logged of the microphone are exactly those that the diagnostic has recorded and, if the block size divides the number of samples, those in the file of the last export, so the two arrays that the script compares are equal. They are the samples of the noise, without delay, unless a high-pass filter is set.", "quantifier": "every block size, every length, every buffer and chunk that hold a block, every noise, all places; the last part with any processor that leaves the microphone signals alone", "why_tests_cant": "The script compares the two arrays for blocks of 4 and 20 samples in a buffer of 20, so no buffer reset happens between the start and the end.", "anchors": ["examples/example_debug.py", "src/aspsim/processor.py:DebugProcessor", "src/aspsim/diagnostics/diagnostics.py:RecordSignal"]}
{"id": "C172", "title": "In the processor example the loudspeaker plays the stream one block late", "statement": "example_processor.py runs to its end. The recording of the loudspeaker has block_size zeros followed by the samples of the stream of the processor, none lost or repeated, and the recording of the microphone has the convolution of this with the impulse response of the room, which is the same during the whole simulation.", "quantifier": "every block size that the buffer and the chunk can hold, every stream, length, room in which the image-source method works, and every place of the loudspeaker and the microphone", "why_tests_cant": "A test sees the delay for one block size and one relation of block, chunk and buffer.", "anchors": ["examples/example_processor.py", "src/aspsim/processor.py:AudioProcessor", "src/aspsim/simulator.py:run_simulation"]}
{"id": "C173", "title": "FastBlockFxLMS uses the first taps of long secondary paths only", "statement": "A simulation with FastBlockFxLMS and secondary paths of any length exports the same files with the same content, and leaves the same data in its diagnostics, as the simulation with FxLMS (normalization \"block\", one update for every filter length) that is given the first filter length - block_size taps of these paths. So the length of the paths beyond that has no effect, and no warning tells.", "quantifier": "all secondary paths, all block sizes that divide the filter length, all buffers that are multiples of the filter length and hold what the updates look at, all diagnostics of signals and of the control filter", "why_tests_cant": "The two processors agree for the short paths one would choose in a test; that a longer path acts exactly as its beginning is a statement about all taps and all signals.", "anchors": ["examples/anc_processors.py:FastBlockFxLMS", "examples/anc_processors.py:FxLMS"]}
{"id": "C174", "title": "Which simulations with FastBlockFxLMS run through", "statement": "A scene without user errors with FastBlockFxLMS runs to its end exactly if at every update the signals reach back two filter lengths, which depends on where in a chunk the update falls; a buffer of two filter lengths and a block always suffices. Otherwise the simulation raises a ValueError at the first update that finds too little.", "quantifier": "all block sizes that divide the filter length, filter lengths, secondary paths, buffers of a block or more, chunk sizes, lengths of the simulation, moving arrays, and diagnostics that fit", "why_tests_cant": "With a buffer that is too short the first updates may succeed and one in the 15th chunk raise, so a test of ordinary length passes.", "anchors": ["examples/anc_processors.py:FastBlockFxLMS", "src/aspsim/simulator.py:run_simulation"]}
{"id": "C175", "title": "What FastBlockFxLMS makes of the reference and the error, for every buffer and all paths", "statement": "If the reference and the error microphones record certain signals, the loudspeakers play the reference one block late through the taps of the filtered-x LMS recursion with one update and one step size for every filter length of samples. The filtered reference in it is that of the first filter length - block_size taps of the secondary paths. The last sim_buffer mod filter length reference samples up to time 0, and those of the first block but its last, are left out of it; from two blocks and a path length on, this has no effect on it. All microphones hear the sum of the sources and these loudspeaker signals through the impulse responses in force, and the contributions are its parts.", "quantifier": "all recorded signals, all times, block sizes that divide the filter length, filter lengths, step sizes, regularizations with which the step is never divided by zero, secondary paths, buffers of a block or more, chunk sizes and scenes, moving or not", "why_tests_cant": "The signals depend on each other through the adaptive filter over the whole simulation; a test compares a few samples for one choice of sizes, usually with a buffer that is a multiple of the filter length.", "anchors": ["examples/anc_processors.py:FastBlockFxLMS", "src/aspsim/simulator.py:Propagator"]}
{"id": "C176", "title": "The active noise control example with measured responses runs to its end", "statement": "The script example_active_noise_control_real_data.py, once the measured responses are read, runs from the creation of the simulator to the end of the simulation and makes its exports, for every room, all places of microphones and loudspeakers, all measured responses with a row for every loudspeaker and microphone, and every noise and step size. With its sizes this holds for up to 150015 samples (it has 10000); with more the simulation ends with a ValueError. With other sizes it runs to its end if the signals hold two filter lengths at every update, and otherwise ends with a ValueError.", "quantifier": "all rooms, positions, numbers of microphones and loudspeakers, measured responses of fitting shape, noise streams, step sizes, random generator states, lengths of the simulation; and all other scenes without user errors and sizes of buffer, chunk, block and filter", "why_tests_cant": "The script needs a data set that is not shipped; the failure comes with the update at sample 150016 only.", "anchors": ["examples/example_active_noise_control_real_data.py:main", "examples/anc_processors.py:FastBlockFxLMS", "examples/anc_processors.py:anc_diagnostics"]}
{"id": "C177", "title": "How the recordings of the example with measured responses belong together", "statement": "In that script, without high-pass filter, the recording of the reference microphone is the noise (which begins sim_buffer - 1 samples before the simulation). The recorded error is the sum of the recorded primary and secondary noise; the primary noise is the noise through the room's responses; the secondary noise is the recorded loudspeaker signal through the measured responses that were set by the user, of any length. And the recorded loudspeaker signal is the noise one sample late through the taps of the filtered-x LMS recursion driven by the noise and the recorded error, whose filtered reference uses the first 511 taps of the measured responses and leaves out the last 488 samples of the noise up to time 0.", "quantifier": "all rooms, positions, measured responses, noise streams, step sizes, all channels and times; and all other scenes of this kind with other sizes", "why_tests_cant": "The recordings are coupled over the whole simulation through the adaptive filter; a test can look at one run, and the data set is not shipped.", "anchors": ["examples/example_active_noise_control_real_data.py:main", "examples/anc_processors.py:FastBlockFxLMS", "src/aspsim/simulator.py:Propagator"]}
{"id": "C178", "title": "FastBlockFxLMS does not depend on chunk and buffer size", "statement": "Two simulations with the processor FastBlockFxLMS that differ only in sim_chunk_size and sim_buffer (both large enough for the processor, start_sources_before_0 False) produce the same samples of all array signals and leave the processor in the same state at every step.", "quantifier": "all setups, secondary paths, parameters of the processor, chunk and buffer sizes, numbers of steps", "why_tests_cant": "The processor works on blocks that are laid over the buffer and looks back over two of them, and its control filter feeds back through the room; each test runs one pair of sizes.", "anchors": ["examples/anc_processors.py:FastBlockFxLMS.prepare", "examples/anc_processors.py:FastBlockFxLMS.update_filter", "src/aspsim/simulator.py:Propagator.prepare", "src/aspsim/simulator.py:Simulator.run_simulation"]}
{"id": "C179", "title": "FastBlockFxLMS with step size zero and in silence", "statement": "With step_size 0 the control filter of FastBlockFxLMS stays at zero, its loudspeakers are silent at every time and every microphone hears exactly what it would hear without processors. With any step size and a positive beta: if the free sources are silent, all microphones and loudspeakers stay silent and the filter stays at zero.", "quantifier": "all scenes with FastBlockFxLMS as in C175, all paths including feedback from the loudspeakers to the reference microphones, all run lengths", "why_tests_cant": "A statement about all times of a feedback system; unstable loops show only for some paths and long runs.", "anchors": ["examples/anc_processors.py:FastBlockFxLMS", "src/aspsim/simulator.py:Propagator"]}
{"id": "C180", "title": "Louder sources with FastBlockFxLMS", "statement": "Take two simulations with the processor FastBlockFxLMS of the same scene, where the sources of the second play a nonzero factor times what they play in the first and beta is multiplied by the square of the factor. Then at every time index every sample of every microphone, loudspeaker and contribution signal of the second simulation is that factor times the one of the first, and the control filters have exactly the same taps.", "quantifier": "all scenes with FastBlockFxLMS, all sources, factors, moving arrays, parameters, chunk and buffer sizes, with and without start_sources_before_0, all time indices", "why_tests_cant": "The filter is adapted by products of recorded signals, so a change of the level acts on everything that follows; a test compares two levels for one scene and one run length.", "anchors": ["examples/anc_processors.py:FastBlockFxLMS", "src/aspsim/simulator.py:Propagator"]}
{"id": "C181", "title": "Playing everything later delays everything, with FastBlockFxLMS", "statement": "Take a simulation with the processor FastBlockFxLMS whose arrays stand still and whose sources start at time 0, and a second one where every source plays zeros for a whole number of filter lengths first. Then in the second simulation all microphone, loudspeaker and contribution signals are zero for that time and afterwards those of the first one, and the control filters are the same after as many more steps.", "quantifier": "every scene with FastBlockFxLMS and standing arrays, every source, delay by whole filter lengths, block, chunk and buffer size, length of the run", "why_tests_cant": "The filter keeps state for the whole run; whether its very first block is treated like any other only shows in a comparison of two runs, for every choice of sizes and paths.", "anchors": ["examples/anc_processors.py:FastBlockFxLMS.update_filter", "examples/anc_processors.py:FastBlockFxLMS.prepare", "src/aspsim/simulator.py:Propagator"]}
{"id": "C182", "title": "With FastBlockFxLMS, too, results do not depend on the order of the channels", "statement": "Take a simulation with the processor FastBlockFxLMS and a second one of the same scene where the channels of every array are listed in another order (positions, channels of the sources, secondary paths given to the processor). Then every channel of every array signal and contribution in the second simulation is that of the first one with its old number at every time index, and the control filters are those of the first one with the old numbers.", "quantifier": "all scenes with FastBlockFxLMS, all permutations of the channels of each array, all sources, moving arrays, parameters, chunk and buffer sizes, with and without start_sources_before_0, all time indices", "why_tests_cant": "Each channel acts on all others through the error signals and the normalization; a test compares one order with another for one scene.", "anchors": ["examples/anc_processors.py:FastBlockFxLMS", "src/aspsim/simulator.py:Propagator"]}
{"id": "C183", "title": "Diagnostics of a run with FastBlockFxLMS", "statement": "In a simulation with the processor FastBlockFxLMS that runs to its end, a RecordSignal diagnostic of any array holds, at every time index of its save_at, exactly the sample that was produced then, and nan elsewhere; SignalPower holds the mean of the squared produced samples; each export hands over the saved samples up to its index, for the requested indices up to tot_samples, each once and in order; RecordFilter and RecordState read the control filter with the taps of the block filtered-x LMS recursion after the updates made so far; the recording of a loudspeaker is the reference one block late through these taps.", "quantifier": "all scenes with FastBlockFxLMS, all microphone, loudspeaker and source signals, selections of channels, save intervals, export indices and frequencies, chunk and buffer sizes", "why_tests_cant": "The processor writes several samples ahead into the signals and keeps a signal of its own; whether what is recorded is what was produced depends on where chunks, blocks, intervals and updates fall, for all lengths.", "anchors": ["examples/anc_processors.py:FastBlockFxLMS", "src/aspsim/diagnostics/core.py:SignalDiagnostic", "src/aspsim/diagnostics/diagnostics.py:RecordFilter"]}
{"id": "C184", "title": "Evaluation microphones, diagnostics and contributions do not influence noise control", "statement": "If a simulation with FxLMS or FastBlockFxLMS completes, then it completes as well with fewer diagnostics, without microphone arrays that neither the processor nor the remaining diagnostics use, and without save_source_contributions if no diagnostic reads the contributions; the control filter, the loudspeaker signals, all remaining signals, recordings and exports are exactly the same. In particular the shipped example with measured responses gives the same with and without its evaluation microphones \"eval\", except that the diagnostic \"spatial_noise_reduction\" is missing.", "quantifier": "all scenes and rooms with FxLMS or FastBlockFxLMS, all sets of arrays, of microphones left out and of diagnostics, all parameters and lengths; paths to the other microphones not of type \"random\" and a deterministic image-source method", "why_tests_cant": "Every array adds signals, filters and impulse responses to the state that prepare, process and update_filter read and write; that none of them reaches the control filter is a statement about pairs of runs over all inputs.", "anchors": ["examples/anc_processors.py:add_anc_diagnostics", "examples/anc_processors.py:FxLMS", "examples/anc_processors.py:FastBlockFxLMS", "examples/example_active_noise_control_real_data.py", "src/aspsim/simulator.py:Propagator"]}
{"id": "C185", "title": "Adaptive noise control does not depend on the order in which arrays are added", "statement": "If a simulation with FxLMS or FastBlockFxLMS completes, then it completes as well when the arrays are added in any other order, with the same control filter, impulse responses, signals, recordings and exports. In particular the shipped example with measured responses runs to its end with the same results in whatever order its five arrays are added.", "quantifier": "all scenes and rooms with FxLMS or FastBlockFxLMS, all permutations of the arrays, all parameters and lengths; no path of type \"random\", a deterministic image-source method", "why_tests_cant": "The order of the arrays decides in which order paths are generated, in which order contributions are added to the microphones and in which order prepare and the processor see them; the number of orders grows factorially and the claim concerns pairs of runs.", "anchors": ["examples/anc_processors.py:FxLMS", "examples/anc_processors.py:FastBlockFxLMS", "examples/anc_processors.py:add_anc_diagnostics", "examples/example_active_noise_control_real_data.py", "src/aspsim/array.py:ArrayCollection", "src/aspsim/simulator.py:Propagator"]}
{"id": "C186", "title": "Sources that stay silent can be left out of adaptive noise control", "statement": "If a simulation with FxLMS or FastBlockFxLMS completes, then it completes as well without sources that are silent: free sources that deliver only zeros and controllable sources other than \"loudspeaker\", to which the processors write nothing. The signals these sources have caused were zero throughout, and the control filter, all other signals, recordings and exports are the same.", "quantifier": "all scenes and rooms with FxLMS or FastBlockFxLMS, all sets of silent sources that the diagnostics do not use, all parameters and lengths; paths of the other sources not of type \"random\", a deterministic image-source method", "why_tests_cant": "A silent source adds impulse responses, filters and contributions to every microphone that the adaptation uses; that none of them changes a bit of the control filter is a statement about pairs of runs over all inputs.", "anchors": ["examples/anc_processors.py:FxLMS", "examples/anc_processors.py:FastBlockFxLMS", "src/aspsim/simulator.py:Propagator", "src/aspsim/array.py:ArrayCollection"]}
{"id": "C187", "title": "A trajectory that stays where it is equals no trajectory for adaptive noise control", "statement": "If a simulation with FxLMS or FastBlockFxLMS completes with arrays whose trajectories never leave the initial position, then it completes as well with static arrays at these positions, whatever the path update frequency, with the same control filter, impulse responses, signals, recordings and exports.", "quantifier": "all scenes and rooms with FxLMS or FastBlockFxLMS, all standing trajectories, all update frequencies, parameters and lengths; no path of type \"random\", a deterministic image-source method", "why_tests_cant": "With trajectories impulse responses are generated again and filters exchanged while the processor adapts, once per update interval; that these exchanges leave no trace is a statement about pairs of runs over all lengths and frequencies.", "anchors": ["examples/anc_processors.py:FxLMS", "examples/anc_processors.py:FastBlockFxLMS", "src/aspsim/array.py:ArrayCollection", "src/aspsim/simulator.py:Propagator"]}
{"id": "C188", "title": "Simulations with adaptive noise control can be continued by running them again", "statement": "After a completed run of a valid scene with FxLMS or FastBlockFxLMS, run_simulation can be called again any number of times. The recordings of earlier runs are kept and nothing is exported again; free sources go on with the sample after the last delivered one; the control filter keeps its taps and is first updated when the number of samples that the processor has handled in all runs is a multiple of the update block size. Every further run completes.", "quantifier": "all scenes with FxLMS or FastBlockFxLMS, all numbers of previous runs with whatever diagnostics, all block sizes, update block sizes, filter lengths and paths", "why_tests_cant": "The counter of the processor is not set back while the signals are made anew, so where the updates of the n-th run fall depends on n, the total number of samples and the block sizes; whether one of them comes too early for the new buffer has to be settled for every number of runs.", "anchors": ["examples/anc_processors.py:FxLMS", "examples/anc_processors.py:FastBlockFxLMS", "examples/anc_processors.py:ActiveNoiseControlProcessor", "src/aspsim/simulator.py:Simulator"]}
{"id": "C189", "title": "With adaptive noise control only positions relative to the room matter", "statement": "Setting up and running a simulation with FxLMS or FastBlockFxLMS, with image-source paths and moving arrays, gives the same control filter, signals, recordings, exports, impulse responses and exceptions after the room centre, all positions and all trajectories have been moved by the same vector. In particular this holds for the shipped script with measured responses.", "quantifier": "all arrays, rooms, displacements, path types, given responses, trajectories, adaptive processor parameters and all diagnostics that do not look at coordinates themselves", "why_tests_cant": "The displacement is a continuous quantity, and positions are looked at again at every update of a moving array, in every path.", "anchors": ["examples/anc_processors.py:FxLMS", "examples/anc_processors.py:FastBlockFxLMS", "src/aspsim/room/roomimpulseresponse.py:ir_room_image_source_3d", "src/aspsim/room/roomimpulseresponse.py:PathGenerator", "src/aspsim/array.py:ArrayCollection.update_path"]}
{"id": "C190", "title": "Without image-source paths coordinates and room do not matter for adaptive noise control", "statement": "If no path is of type ism, setting up and running a simulation with FxLMS or FastBlockFxLMS gives the same control filter, signals, recordings, exports, impulse responses and exceptions for any coordinates of the arrays and any room size, centre and reverberation time that can be set up.", "quantifier": "all arrays, pairs of rooms that can be set up, path types other than ism, given responses, adaptive processor parameters and all diagnostics that do not look at coordinates themselves", "why_tests_cant": "It is a statement about two whole runs with arbitrary coordinates and rooms; a test compares a few.", "anchors": ["examples/anc_processors.py:FxLMS", "examples/anc_processors.py:FastBlockFxLMS", "src/aspsim/simulator.py:SimulatorSetup"]}
{"id": "C191", "title": "A simulation with adaptive noise control can be repeated with its impulse responses", "statement": "Take impulse responses from a prepared simulation with FxLMS or FastBlockFxLMS and set them with set_prop_path in a new setup with the same arrays; in a correctly described room none of these calls raises. The new simulation then gives the same control filter, signals, impulse responses, recordings and exports, in any state of the random generators, as long as the arrays of these paths stand still and the remaining paths are not random. In particular, if all arrays stand still, giving all responses makes a simulation repeatable, also one with random responses.", "quantifier": "all scenes and rooms with FxLMS or FastBlockFxLMS, all sets of pairs of standing arrays, all path types and given responses, all states of the random generators, all parameters and lengths; diagnostics that depend on the arrays only", "why_tests_cant": "It compares two whole runs in arbitrary states of the random generators, for every way to choose the given responses.", "anchors": ["examples/anc_processors.py:FxLMS", "examples/anc_processors.py:FastBlockFxLMS", "src/aspsim/array.py:ArrayCollection.set_prop_path", "src/aspsim/array.py:ArrayCollection.update_path"]}
{"id": "C192", "title": "A longer simulation with adaptive noise control starts like a shorter one", "statement": "Two completed simulations with FxLMS or FastBlockFxLMS that differ only in their length and their diagnostics agree up to the end of the shorter one: every signal has the same samples, and the control filter and the arrays are the same after every step. A recording with the same arguments holds the same samples, followed by further ones, and the exports of the shorter simulation are those exports of the longer one whose index is at most the length of the shorter one.", "quantifier": "all scenes with FxLMS or FastBlockFxLMS, all pairs of lengths, all parameters, sources and trajectories, all recordings and export times", "why_tests_cant": "It relates two runs of arbitrary length with a feedback between processor and signals.", "anchors": ["examples/anc_processors.py:FxLMS", "examples/anc_processors.py:FastBlockFxLMS", "src/aspsim/simulator.py:Simulator.run_simulation", "src/aspsim/diagnostics/diagnostics.py:RecordSignal"]}
{"id": "C193", "title": "A longer maximal length of the responses changes nothing for adaptive noise control", "statement": "If no impulse response of the image-source package is longer than max_room_ir_length, a simulation with FxLMS or FastBlockFxLMS that completes also completes with every other max_room_ir_length that is not less than the longest response, with the same signals, control filter, diagnostics and exports. Only zeros at the ends of the responses differ.", "quantifier": "all scenes with FxLMS or FastBlockFxLMS without a high-pass filter and without random paths, all lengths, parameters, sources and trajectories", "why_tests_cant": "It relates runs with arrays of different shapes over all inputs and all numbers of samples.", "anchors": ["examples/anc_processors.py:FxLMS", "examples/anc_processors.py:FastBlockFxLMS", "src/aspsim/room/roomimpulseresponse.py:ir_room_image_source_3d"]}
{"id": "C194", "title": "Microphones at the same place record the same signal with adaptive noise control", "statement": "In a simulation with FxLMS or FastBlockFxLMS, two microphones which are at the same place at every update of the arrays record the same signal, whether they belong to the same array or not, whether the processor uses one of them or not, and whether their arrays stand still or move, if the paths to them are of the same type, image-source or none. With save_source_contributions, the contributions of every source to the two microphones are the same, too.", "quantifier": "every room simulation that is a function of the two positions, every set of arrays and trajectories with an error, a reference and a loudspeaker array, every pair of microphones, all parameters, all time indices", "why_tests_cant": "Equality of all samples in a feedback loop for every assignment of microphones to arrays.", "anchors": ["examples/anc_processors.py:FxLMS", "examples/anc_processors.py:FastBlockFxLMS", "src/aspsim/array.py:ArrayCollection.update_path", "src/aspsim/room/roomimpulseresponse.py:PathGenerator.create_path", "src/aspsim/simulator.py:Propagator"]}
{"id": "C195", "title": "A simulation with adaptive noise control loaded from a session repeats the one that wrote it", "statement": "Load a saved session with load_from_path, create a simulator from it and add FxLMS or FastBlockFxLMS with the same parameters. The processor gets the same secondary paths, and the run gives the same signals, control filters, diagnostics and exported results as the run that wrote the session, whatever the state of the random generators.", "quantifier": "every configuration, every set of arrays and path types, all parameters of the processor, all states of the random generators, any number of samples", "why_tests_cant": "The claim relates two complete runs of a feedback loop for every setup, including moving arrays.", "anchors": ["src/aspsim/simulator.py:SimulatorSetup.load_from_path", "src/aspsim/simulator.py:SimulatorSetup.create_simulator", "src/aspsim/array.py:ArrayCollection.set_default_path_type", "src/aspsim/array.py:ArrayCollection.update_path", "examples/anc_processors.py:FxLMS", "examples/anc_processors.py:FastBlockFxLMS"]}
{"id": "C196", "title": "Region arrays act like microphones at their grids with adaptive noise control", "statement": "In a simulation with FxLMS or FastBlockFxLMS the grouping of the objects of an array does not matter. A RegionArray used as error, reference or further microphones gives the same control filters, signals, recordings, exported results, impulse responses and exceptions as a MicArray with the grid of the region as its positions, whatever paths and path types the user has set.", "quantifier": "every room, every region or list of regions, every set of further arrays, paths and path types, all parameters of the processor, any number of samples", "why_tests_cant": "Equality of two complete runs of a feedback loop for every region.", "anchors": ["src/aspsim/array.py:RegionArray", "src/aspsim/array.py:MicArray", "src/aspsim/simulator.py:SimulatorSetup.create_simulator", "examples/anc_processors.py:FxLMS", "examples/anc_processors.py:FastBlockFxLMS"]}
{"id": "C197", "title": "Adaptive noise control is causal", "statement": "What the sources deliver later does not influence what has been recorded and learnt before. If the sources of two simulations with FxLMS or FastBlockFxLMS in the same room deliver the same first N samples, then all recordings have the same first N samples (fewer by the buffer length if sources are started before 0), and the control filters are the same until then. If the sources agree in all samples that are requested, the complete outcomes are the same.", "quantifier": "every room and set of arrays, all sources, all parameters of the processor, all N, any number of samples", "why_tests_cant": "A feedback loop with a processor that reads blocks from a buffer; a look-ahead by one sample in any of the pieces shows only for particular sources and block positions.", "anchors": ["src/aspsim/simulator.py:Simulator.run_simulation", "src/aspsim/simulator.py:Propagator", "examples/anc_processors.py:FxLMS", "examples/anc_processors.py:FastBlockFxLMS"]}
{"id": "C198", "title": "LinearChirpSource sweeps linearly and seamlessly", "statement": "A LinearChirpSource delivers amplitude times the cosine of a phase whose frequency goes linearly from the first frequency to the second in samplesToSweep samples, back in the next ones, and so on, with the phase the exact integral of the frequency, however the samples are requested.", "quantifier": "all amplitudes, frequencies, sweep lengths above 0, sample rates, initial phases, and all sequences of requests", "why_tests_cant": "The source can be asked for any number of samples at any position in a sweep; only requests that go over one end of a sweep more than they have whole sweeps go wrong.", "anchors": ["src/aspsim/signal/sources.py:LinearChirpSource"]}
{"id": "C199", "title": "Exported levels are the decibels of the data", "statement": "db_power replaces each power p by the number y with p = 10^(y/10), 0 by -inf, and only negative data by nan; db_amplitude of magnitudes equals db_power of their squares; a gain g raises all levels by 20 log10|g|; greater powers have greater levels; natural_log is undone by exp. With smooth(q) before it, as power_of_all_signals sets up, the export is the level of the mean power of the last q samples, never nan, and -inf exactly where these are all silent. With clip(low, high) after it, the export has only numbers between the limits, and silence becomes the lower limit.", "quantifier": "all data, gains, smoothing lengths above 0 and limits", "why_tests_cant": "All real data; silence and the order of the preprocessing functions are the cases that sampled tests miss.", "anchors": ["src/aspsim/diagnostics/preprocessing.py:db_power", "src/aspsim/diagnostics/preprocessing.py:db_amplitude", "src/aspsim/diagnostics/preprocessing.py:natural_log", "src/aspsim/diagnostics/preprocessing.py:smooth", "src/aspsim/diagnostics/preprocessing.py:clip", "src/aspsim/diagnostics/diagnostics.py:power_of_all_signals"]}
{"id": "C200", "title": "Adaptive noise control depends on the noise only through what the microphones hear", "statement": "Two simulations with the same adaptive filter, sim_buffer and start_sources_before_0 may have different noise sources, differently grouped into arrays, and different further arrays. If at every time the reference and error microphones hear the same of the noise in both, with the same impulse responses from the loudspeakers, then in both the loudspeakers play the same samples, every microphone array for which this also holds records the same, and the control filters have the same taps.", "quantifier": "all pairs of configurations with the same processor (FxLMS or FastBlockFxLMS), any noise sources, arrays that may move, any number of steps", "why_tests_cant": "The control filters feed back into what the microphones hear; equality has to be carried through every step of arbitrarily long runs of two different configurations.", "anchors": ["examples/anc_processors.py:FxLMS", "examples/anc_processors.py:FastBlockFxLMS", "src/aspsim/simulator.py:Propagator"]}
{"id": "C201", "title": "Sequence in 'zeros' mode plays the audio once and then silence", "statement": "With the end mode 'zeros', which the documentation offers, a Sequence plays its audio times amp_factor once and from then on silence; an end mode that does not exist is rejected.", "quantifier": "every audio, amplitude factor and request pattern", "why_tests_cant": "Request patterns of any length around the end of the audio.", "anchors": ["src/aspsim/signal/sources.py:Sequence.get_samples"]}
{"id": "C202", "title": "How noise sources are grouped into arrays does not matter for adaptive noise control", "statement": "Take two simulations with the same adaptive filter in the same room, with paths of type ism or none, in which the same single noise loudspeakers play the same signals at the same places, with the same path types, the same sim_buffer and start_sources_before_0. They may be put into arrays in any way, under any names and in any order. If the reference and error microphones and the loudspeakers of the filter are at the same places, then the loudspeakers play the same, all microphone arrays at the same places record the same, and the control filters have the same taps.", "quantifier": "all ways to group any number of standing or moving noise loudspeakers, all source signals, FxLMS and FastBlockFxLMS, any number of samples, every image-source method whose responses depend on the two places only", "why_tests_cant": "A test compares a few groupings of a few loudspeakers over a short run; the claim ranges over every grouping and signal, through the feedback of the adaptive filter.", "anchors": ["examples/anc_processors.py:FxLMS", "examples/anc_processors.py:FastBlockFxLMS", "src/aspsim/simulator.py:Propagator.propagate", "src/aspsim/array.py:ArrayCollection.update"]}

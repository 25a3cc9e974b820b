# Formal model of aspsim (Lean 4)

## Trusted base

* The Lean 4.33.0 kernel and the Mathlib modules imported one by one.
* Axioms: only Lean's standard `propext`, `Classical.choice`, `Quot.sound`;
  see "Axioms" below.  No axiom, `sorry`, `admit`, `native_decide`, `bv_decide`,
  `unsafe` or `implemented_by` is added.
* The reading of the Python source: every definition under `Verif/Model`
  cites the file and lines of `/repo` it mirrors and states what it leaves
  out.  Exceptions are values (`Except PyErr _`); Python slices (`a[i:j]`,
  negative indices, silent truncation, numpy broadcasting of length-1 axes) are
  in `Verif/Model/PySlice.lean`.
* Number domain: samples and impulse responses are elements of an arbitrary
  commutative ring or field; geometry uses `ℝ` or an arbitrary ordered field;
  indices are `Nat`/`Int`.  **Floating-point rounding, overflow, `nan` arithmetic
  and `inf` are not modelled**, except that unset entries of data arrays are `none`
  where Python has `nan`.  `np.allclose`/`np.isclose` are modelled with their default
  tolerances.  A division by zero of the field gives 0 in Lean: wherever the
  code can divide by zero the model raises, or the theorem has a hypothesis, or
  the comment says so (`StatePower` of an empty state is `nan` in Python, 0 in
  the model; no theorem uses that case).
* Loops whose termination is not obvious have a fuel argument; running out of
  fuel is the error `diverges` (or `none`).  Theorems either prove that enough fuel
  exists and its amount is irrelevant, or that no fuel is enough.

### External code: parameters and contracts

External code is a parameter or a contract stated as a hypothesis, never an axiom.

| what | how it enters |
|------|---------------|
| `aspcore.filter` | abstract machine `FiltOps` (create, process, update_ir). Where the convolution matters (C10, C11, C14, C16, C18, C77) it is the machine `firOps` of `Model/Fir.lean`: FIR with zero initial state, `update_ir` keeps the past input, wrong shapes raise |
| `pyroomacoustics` | arbitrary function `roomRir` of the positions (in C106, C107 made of the shoe box and the offset positions) and a global state; the contract `RirCfg.Lawful` only fixes the number of receivers and sources in its result |
| `PyYAML` (C140) | modelled as trees of nodes: `yaml.dump` tags tuples and numpy values, `yaml.safe_load` refuses tagged nodes; the text of the file is not modelled |
| `scipy.signal.sosfiltfilt`, `np.random.normal` | arbitrary functions; shape contract in `RirCfg.Lawful` |
| `scipy.linalg.solve_toeplitz` | any function whose results solve the system (`SolvesToeplitz`) |
| `aspcore` `IIRFilter` | the recursion with the given coefficients (`iirStep`) |
| `aspcore` `FilterBroadcastFreq`, `correlate_sum_tt`, `block_process_idxs` | overlap-save with blocks of half the transform length, circular correlation behind zeros, the beginnings of the whole blocks (`Model/FastBlock`) |
| `np.fft.rfft` | the sum that defines it (`rfft`) |
| `log10`, `measure_rt60`, `np.sqrt` | parameters |
| random generators | arbitrary sequence of draws (from [0,1) for `uniform`), or an arbitrary global state `G` |
| sound sources inside the simulator | arbitrary state machine `srcGet`; `IsStream`/`Emitted` say that it delivers a stream; `Props/Sources.lean` proves this for the sources of the package |
| user-written processor | arbitrary `process` function; `ProcView` (used by C02, C07 – C09, C13) says that it reads a bounded window behind the current index and writes at most one block ahead, which is what the documentation allows |
| diagnostics written by users | `DiagOps`; `DiagOps.Local` says that `save` looks at the given interval of the signals only. The built-in classes are proved to be local |
| array collection inside the simulator | abstract in `Model/Sim.lean`; `Model/Array.lean` is the concrete one, plugged in by C14, C50 |
| file system, YAML, dill | finite list of names with contents; reading gives back what was written. YAML does not round-trip tuples and numpy values; configurations built from lists and plain numbers are assumed |

## Layout

* `Verif/Model/*`  definitions mirroring the code (cited), nothing else.
* `Verif/Spec/*`   small independent specifications (tape, periodic stream,
  convolution, interval membership, perimeter of a rectangle, constant speed ...).
* `Verif/Lemmas/*` helper lemmas.
* `Verif/Props/*`  the property theorems (`C01_...`), with `example`s showing
  that their hypotheses are met by non-trivial cases.
* `Verif/Demo/*`   a small concrete simulator used for examples and witnesses.

## Time axis used for the simulator

The local buffer position `p` of `Signals` after `K` resets holds the sample
of global step `τ = p - sim_buffer + K*sim_chunk_size`.  `Propagator.prepare`
writes `τ = -1` (or `-sim_buffer .. -1`), loop iteration `n` writes `τ = n`.
`Logger.save_data` stores step `τ` at time index `t = τ + 1`.  The central
lemma is a refinement: the chunked buffers are at every iteration a window of
an unbounded tape on which the same program runs without resets.

## Properties: what is modelled and how it is proved

"W" marks properties that the code violates; see "Disagreements".

| id | model | method |
|----|-------|--------|
| C01 C03 | whole `run_simulation` loop, `Signals`, `Propagator`, `Logger`, `IntervalCounter`, `RecordSignal` | refinement to the tape, induction on steps with an invariant of the interval counter |
| C02 | same | two runs with different sizes refine the same tape run; processor given by its view (`ProcView`); diagnostics (recordings, powers, states, instants) have the same data and exports |
| C04 C05 | `dispatch`, `export_this_idx`, `IndexCounter`, `get_values_up_to_idx` | invariant: exported prefix of the index list, saved prefix of the record; `C05_intervals` for every diagnostic class and any save intervals |
| C06 C07 C08 C09 | loop, `DebugProcessor` | the list of calls is recorded by an instrumented processor (a tracing wrapper, proved not to change the run); arithmetic invariant on `idx`; refinement; for processors that work during the preparation (`SimCfg.CallsWith`, the wrapper notes only calls of `process`) `C06_prepared_*` in general, and `C07_fxlms`, `C08_fxlms`, `C07_fast`, `C08_fast` for the two adaptive ones, by `GInv` |
| C10 C11 C12 C16 C18 | `Propagator` with FIR filters, sources as streams | induction on steps of the tape run |
| C13 | whole run, also with a processor whose `prepare` does anything with the signals before the first step (`C13_prepared`) | simulation relation between two runs whose sources agree on the first samples |
| C14 C42 C43(W) | `ArrayCollection.update`, `Array.update`, `update_path`, `update_ir` | list induction over the changed arrays; `Regen` lists the calls of the generator; `GeneratedAt` connects them to positions |
| C15(W) C17(W) | `prepare`, loop without processor | witness, and a theorem for the part that holds |
| C19 C20(W) C21(W) C22 | `StateDiagnostic`, `RecordState`, `InstantDiagnostic`, `RecordFilter` | schedule invariant (`StateAt`) |
| C23 C24(W) | `SignalPower`, `SoundfieldPower`, `SignalPowerRatio` | sums over concatenated pieces (`PowerAt`, `avgSince`) |
| C92(W) C93 | `SignalPowerSpectrum`, `SignalSummary`, `StateComparison`, `StateSummary`, `EigenvaluesOverTime`, `Eigenvalues`, `RecordFilterDifference` | saved pieces put together; C21, C22 for the composed getter |
| C25(W) C26(W) | constructors of `StatePower` and `IntervalCounter` | computation |
| C27 C52(W) | `attritemgetter`, `set_unique_processor_names` | induction on characters; pigeonhole for termination |
| C28 C29 C69 – C73 C76(W) | file-name functions over a finite set of names, `savenpz` | string lemmas, pigeonhole |
| C30 – C37 C75(W) | source objects as state machines, `calc_block_sizes` loop inside | induction on the request list (`IsStream`) |
| C38 C74 | block helpers | integer arithmetic; uniqueness of the split |
| C39(W) C40 C41 C44 C45 | `Array`, `ArrayCollection`, `PathGenerator.create_path`, batch loop of the image-source path | list and loop invariants |
| C46(W) C47(W) C48(W) C49(W) C51 C78(W) | `configutil`, `saveloadsession`, `prototype_equals`, `create_simulator` (arrays) | decision logic; a crash is a prefix of the write operations |
| C50(W) | several simulators of one setup: `World`, operations of the user | homomorphism on the array state, invariant on the global state |
| C53 C54(W) C55 | phase and event counters | induction on calls |
| C56 – C61 (C60, C61: W) | regions | floor/ceil arithmetic, trigonometry |
| C62 – C68, C79, C80 (C63, C64, C66, C67, C79: W) | conversions, trajectories, point generators over `ℝ` | floor arithmetic, trigonometry, list lemmas |
| C81 C82(W) | `sort_for_imshow` | sortedness and permutation of the two sorting passes |
| C83(W) C84(W) C85(W) C94 | legend, `create_audio_files`, `Diagnostic.dispatch` with several export functions, preprocessing | list induction, exact arithmetic |
| C86(W) – C90(W) | `uniform_filled_rectangle`, `uniform_filled_cuboid`, `uniform_disc`, `sunflower_pattern`, `uniform_cylinder` | floor arithmetic over `ℝ` |
| C91 | `get_freq_paths`, the Fourier transform written out over `ℂ` | geometric sums of roots of unity; response of the model filter to a tone |
| C95(W) | metadata of the image-source paths | loop invariant: maximum over batches, sources and microphones |
| C96(W) | `AutocorrSource`, `ar_coeffs_from_autocorr` | induction on samples and requests; Yule–Walker equations from the contract of `solve_toeplitz` |
| C97(W) | `SimulatorSetup.add_arrays` | loop invariants; composed with C40 |
| C98(W) | `output_plot` for TikZ, `delete_earlier_tikz_plot` on a folder with sub-folders | induction on the series of plots |
| C99(W) | `create_path` for the types without room, through the FIR filter | sums with one tap |
| C100(W), C101 | `volume`, the overlap check, `sample_points` against Lebesgue measure | products of intervals, polar coordinates (`Lemmas/Volume`, `Lemmas/Uniform`), joint law of the accepted candidates of a rejection sampler (`Lemmas/Rejection`) |
| C102, C103(W), C104(W), C105(W) | `Source.__init__`, `set_power`, powers per channel with numpy's broadcasting (`Model/SourcePower`) | laws of the samples, independence, strong law; telescoping sums of cosines (`Lemmas/TrigMean`); invariant over all sequences of calls |
| C106, C107 | the coordinates handed to the image-source package, `pos_offset`, reverberation parameters (`Model/Room`), and the complete simulation with the path generator (`simulate`) | `createPath` commutes with a map of the positions that `roomRir` does not see; lifted through path updates and runs (`Lemmas/MapPos`) |
| C108(W) | constructor, calls and power changes of `BandlimitedNoiseSource`, for any linear filter (`Model/BandSource`) | superposition; the draw of every sample is a different one; second moments of independent draws |
| C109 | the logger and the run (`Model/Logger`, `Model/Sim`) | keeping some diagnostics commutes with saving, with every round of exports (rounds in which no kept diagnostic is ready do nothing to them) and so with the dispatch loop and the run (`Lemmas/Observe`); conversely a joint run exists because every round of the union is a round of either part; `C109_prepared_*` (`Props/Prepared`) say the same of runs whose processor has work of its own in `prepare` |
| C110 | the complete simulation `simulate` with collection, path generator, processor and diagnostics | simulation relation between the engine with and without the microphones, which agree on all other names; a generic lemma on loops over a list and over a filtered list; the same for collections (`Lemmas/Hide`, `HideColl`, `HideRun`) |
| C111 | the complete simulation `simulate` with collection, path generator, processor and diagnostics | a loop whose steps commute may run in any order (`foldlM_perm`); the steps that create signals, create and update filters, get source samples and propagate pairs commute for different arrays or pairs, two contributions to the same microphone because addition commutes (`Lemmas/Perm`); an update step of the collection gives every moving pair the one response the generator has for it, in any order (`Lemmas/PermColl`); both are combined by the simulation relation of C110 (`Lemmas/PermRun`) |
| C112 | `run_simulation` called again on the simulator as the first run left it (`Model/Again`) | every interval counter has finished after a complete run, so saving and dispatching do nothing (`Lemmas/Again`); position of the sources from the invariant of the run, and preparation plus steps from there; what a recording added for the second run shows of a source |
| C113(W) | directivity arguments of arrays, their test in the path generator, the conversion to angles (`Model/Directional`) | case analysis of the generator; spherical coordinates; `C113_violated_setup`, `C113_violated_example`: by C40 a created simulator would have the path generated, `directionalArrays` (`Model/Scripts`) is the shipped example |
| C114(W) | `cardioid_from_omni` and its two frequency responses (`Model/Directional`), complex numbers; plane waves are in the specification | the gain is `(1 - e^{-ik(1+p)d}) / (1 - e^{-2ikd})`, its absolute value a ratio of sines, monotone up to pi/2. Assumed: the convention `e^{-jwt}` of the frequency responses; with the other one front and back are exchanged. `fir_from_frequency_function` of aspcore is not modelled |
| C115(W) | `load_audio_file` with `soundfile`, `resample_poly` and `simplify_ratio` as parameters (`Model/SourceArray`) | case analysis |
| C116(W) | `add_to_sim_metadata`, `write_processor_metadata`, dictionaries and JSON files, including the truncated file of a failed `json.dump` (`Model/Metadata`) | induction on the sequence of additions |
| C117(W) | `SourceArray` for arbitrary sources (`Model/SourceArray`) | induction on the requests with the members as streams |
| C118(W) | the methods `plot` of arrays and trajectories as lists of points, the loop of `ArrayCollection.plot` (`Model/SetupPlot`) | arrival times at the corners (C63); floor and ceiling of the number of points |
| C119(W) | metadata of sources, arrays and pairs as Python values, `save_metadata` (`Model/ArrayMeta`) | lookups in dictionaries; names of pairs are different if source names have no `>` |
| C120 | the run loop with two lengths (`Model/Sim`) | steps do not read the length; the shorter run is a prefix of the steps of the longer one; `C120_prepared` says so for processors with work of their own in `prepare`, through the runs without diagnostics |
| C121 | the run loop with delayed sources (`Model/Sim`, `Model/Fir`) | both runs by C14 as convolution sums over everything played; the sums are shifted copies |
| C122 | collection, `setup_ir`, updates, `create_path` and the run loop (`Model/Array`, `Model/Rir`, `Model/Sim`) | C14 for moving arrays; the responses in force come from the geometry of the last update, pointwise by C45 |
| C123 | the run loop with and without contributions (`Model/Sim`) | two runs step by step: all other signals, filters, sources, diagnostics agree |
| C124 | `create_path`, `setup_ir`, updates, filters and the run loop (`Model/Rir`, `Model/Array`, `Model/Fir`, `Model/Sim`) | two runs step by step: responses agree up to zeros at the end, so do the filters; convolution sums do not see the zeros |
| C125 | trajectories, updates, filters and the run loop (`Model/Array`, `Model/Fir`, `Model/Sim`) | invariant: regenerated responses are those of the beginning, and replacing a response by itself leaves the filter as it is |
| C126 | `RegionArray.__init__` and `CombinedRegion` (`Model/RegionArray`, `Model/Region`, `Model/Array`) | grids are concatenated in order and segments are consecutive index ranges (C44); given positions are passed on (`C126_given`); the run commutes with forgetting the groups |
| C127 | propagation, arrays, `Sequence`, `WhiteNoiseSource` (`Model/Sim`, `Model/Fir`, `Model/Array`, `Model/Sources`) | two-run relation: signals of the silent sources and the past input of their filters stay zero, so nothing is added; removed arrays are skipped in every loop |
| C128 | `set_prop_path`, `set_default_path_type`, `setup_ir`, `update` (`Model/Array`), whole run | given pairs become "modified" and are skipped in the preparation; updates touch pairs with a moving array only; two-run relation with different states of the generators |
| C129(W) | `load_from_path`, `create_simulator` on loaded arrays (`Model/Session`), `setup_ir`, `update` (`Model/Array`), whole run | every pair has a response or the type "modified", so that preparing again changes nothing but types; the runs agree by the relation of C128 |
| C130 | `setup_ir`, `update` (`Model/Array`), `create_path` (`Model/Rir`), whole run; the single loudspeakers are listed by `Coll.speakers` (`Spec/Grouping`) | C14 with the streams of C18 gives one sum over all loudspeakers (`C130_each`), in which no array appears; the sum of a permuted list is the same |
| C131 | `PlaySoundProcessor`, `TDANCProcessor` of the examples (`Model/Examples`), `Fir.process`, whole run; `filtered`, `IrMat.delayed` (`Spec/Blockwise`) | processors that read a block, transform it and write a block are one family; a transformation that realises an operator on signals is applied along the tape (`BlockInv`, induction over the iterations): output 0 before `block_size`, then the operator late by `block_size`; streams and filters realise theirs; `C131_heard` moves the delay into the paths in the sum of C10 |
| C132 | as C131 (`Model/Examples.lean`, control filter) and C18 | `loop_equations` reads the equations of the loop off the tape: free sources play their streams, untouched loudspeakers are silent, the controlled ones play the filtered reference one block late, microphones are convolution sums of the current paths; then one induction over time, using that a block has at least one sample |
| C133 | as C132; `IrMat.tf`, `through`, `loopMat`, `loopTf` (`Spec/Transfer`) | impulse responses are polynomials in the delay by one sample, acting on signals over the integers as an algebra; the loop equations of C132 become a linear system over polynomials, solved with the adjugate matrix (`loop_solve`); its determinant starts with 1, so a vanishing right side means silence (`through_inj`) |
| C134 | `FxLMS.update_filter` in `anc_processors.py` (`fxGrad`, `fxUpdate`), the loop of C133; `filteredRef`, `FxBuf`, `energyOf` (`Spec/Fxlms`), `AncPair` | the flipped slices are convolution sums (`fxGrad_eq`, induction over the loop); without feedback the recordings of two filters differ by the difference of the taps acting on the filtered reference (`loop_change`, by commuting polynomials in the delay); expand the square |
| C135 W | as C134, all three normalizations | a step along the gradient: Cauchy-Schwarz bounds the quadratic term (`sum_sq_step`); witnesses with one microphone and one or two taps |
| C136 W | constructors and `save` of `diagnosticsummary.py` (`oldPowerInit`, `oldPowerSave`, `oldRatio`) | every construction raises (`C136_violated`); of the `save` methods alone: induction over the pieces that tile the range |
| C137 W | `mean_near_time_idx` (`meanNear`) | the slice is the window of 3000 samples for time indices from 3000 on; empty before (recordings of at least 3000 samples) |
| C138 | `add_to_summary` (`addToSummary`), the JSON file as its dictionary | induction over the calls |
| C139 | `four_equidistant_rectangles` (`fourRectangles`) | the points of C66 are in a corner or `side / n` away from it (`perimeterPoint_clear`), so `np.isclose` finds the side; induction over the loop. The returned order is that of `equidistant_rectangle`, whose lower side runs backwards (C66) |
| C140 W | `SimulatorInfo.save_to_file`, `load_from_file`, `__post_init__`, `equal_audio` on arbitrary Python values, the search for a session by configuration (`cfgSave`, `cfgLoad`, `cfgEqualAudio`, `cfgSearch`, `cfgCreate` in `Model/Config.lean`) | mutual induction over nested values: a value is either plain and read back, or its file raises (`CfgVal.load_cases`); induction over the folder |
| C141 | `Propagator.propagate`, `prepare` (`Model/Sim`), whole run | C18; every sample a convolution reaches has been played, so shifting by a period changes no term |
| C142 | as C141, with moving arrays | C18; of all terms of the double sum at most one is not zero (`pulse_conv`) |
| C143 W | `FxLMS`, `TDANCProcessor` (`Model/Adaptive`, `Model/Fxlms`, `Model/Examples`), whole run with `prepare` (`SimCfg.initWith`) | processors that write into the past of their own signals on the unbounded tape (`TapeProc`, `GInv`); invariant over the steps for counter, filter histories, taps, stored filtered reference and loudspeaker signals (`AInv`); shift from steps to times |
| C144 W | as C143 | chunks: the tape run does not contain the chunk size; buffer: bisimulation of two tape runs, filter memories equal up to zeros before the first sample |
| C145 | `concentrical_circles`, `equiangular_circle` (as C67, C68) | start angles read off the layers of C67; `i + j·circles` takes every value once |
| C146 | `equivalent_delay` in `examples/anc_processors.py` | sums over ranges; `nan` as `none` |
| C147 W | `FastBlockFxLMS` (`Model/FastBlock`) beside `FxLMS` (as C143); `SimCfg.withProc` is the same simulation with another processor | the second half of a circular convolution is the convolution if the response is short (`circConv_firOut`), the circular correlation behind zeros is the gradient (`fastGrads_eq`); relation of the two processor states kept by every call (`fastProcess_cut`), blocks of the preparation by induction, engine steps do not see the processor otherwise; buffers as in C157 (`Holds`, with two filter lengths) |
| C148 | whole runs with `FxLMS` (as C143) and the filters of all pairs; `SimCfg.playedWith` says what every source plays | the tape with the processor: filter states hold the history of the sources and the response in force (`gFirInv_steps`), microphone samples are sums of filter outputs (`gTape_fir`, `gTape_pair`), free sources play their streams (`gSteps_source`); C143 for the loudspeakers |
| C149 | as C148 | step size 0: taps 0 by induction over the updates, then C148; silence: induction over time, a loudspeaker sample depends on earlier reference samples only, then every microphone is a sum of zeros, and gradients of zero errors are zero |
| C150 | simulations without processors (C18) over an ordered field | `C18_open_loop` and the triangle inequality over sources, channels and taps |
| C151 | `run_simulation` with the preparation of `FxLMS` (`SimCfg.runWith`) and the diagnostics of C01–C05, C19, C22, C23; the processor's own signal `xf` is left out, it is written into the past and has more axes than `RecordSignal` can read | `DiagRun` (what the diagnostics of a completed run do, apart from the processor) is established by an invariant for processors that act on the tape (`gDiagRun`), the proofs of the C01–C23 theorems are proofs about `DiagRun`; taps by `C143_stored` |
| C152 | as C143, C148; `FxPar.louder` (`Spec/AdaptiveScale`) says how step size and `beta` go with the level | the past is linear in the streams (`tInit_scale`); taps, loudspeakers and microphones at a time index are functions of what was recorded before (C143, C148), each of them homogeneous: strong induction over time |
| C153 W | `equidistant_rectangle_old` (`Model/OldRectangle`) with the truncating `int` and the assignment to slices; `perimeterPoint` (`Spec/Points`) | invariant of the loop over the sides: the next position is (number so far + offset) · distance along the perimeter (`oldRectSide_step`) |
| C154 W | `equidistant_rectangle_for_fewer` (`rectangleFewer`, `Model/OldRectangle`), the draws are arguments | one to three points by cases; otherwise the loop is that of C153 with the draw as offset |
| C155 | `Renumbers`, `IrMat.renumber`, `SimCfg.renumbered` (`Spec/Renumber`): the same arrays with the impulse responses between channel `π i` and `π c` as those between `i` and `c`; runs as in C18 and C143 | `C155_open`: both runs by C18, sums over channels reindexed by the permutation; `C155_renumber`: as C152, the LMS sums are reindexed (`lmsGrad_renumber`, `filteredRef_renumber`, ...), strong induction over time; `C155_paths`: by C45, listing positions in another order renumbers the simulated responses, whatever the batches |
| C156 W | runs as in C143 and C148; `LaterRuns` (`Spec/Later`) are the two runs | `C156_partial` for a reference microphone that records nothing before time 0 and, with a block size above 1, nothing in the first block: first the second run is silent (induction over time), then taps, loudspeakers and microphones are shifted (`lmsTaps_shift`, `adaptiveOut_shift`), strong induction over time; witnesses are runs computed by the kernel |
| C157 | whole run with `FxLMS`, as totality | the invariant of C77 on the tape of C143 (the processor keeps shapes, `prepare` succeeds); diagnostics as in C77, on the signals other than the processor's own; the buffer need only be as long as the updates that happen look back (`Holds`), the place of every step in the buffer is `SimCfg.indexAt` (`steps_index`) |
| C158 | the earlier image-source function with its own parameters, batches, assignments and metadata (`Model/OrigRir`) | loop by loop equal to the function that the simulator uses, for every image-source package; the cases without positions apart |
| C159 | whole runs with `FxLMS` and with `FastBlockFxLMS`, all diagnostic classes; `Spec/SameDiag` says when two diagnostics on different processors are the same | the state relation of C147 extended by counters, data and exports (`Lemmas/SameDiag`), kept by save, dispatch and step; preparation of the second processor succeeds (`Lemmas/FastRun`); with C157 for valid scenes |
| C160(W) | `sf_plot`, `soundfield` | minimum and maximum of the grid, position j of n lies in part j of n |
| C161(W) | `compare_soundfields` by the shape of its argument | case distinction; sorting succeeds only with a value for each point |
| C162 C163 | `size_of_2d_plot`, `plot_3d_in_2d` | minimum and maximum of a list; partition by rounded height |
| C164 | adding arrays, `set_prop_path`, path types, `setup_ir`, `update`, the whole run (C77) | the collection stays usable (`Usable`): consistent, paths of the right shape, types of moving pairs can be generated; `setup_ir` establishes this, `update` keeps it, and it gives the `ValidScene` of C77 |
| C165 W | as C157; `SimCfg.indexAt` (where a step is in the buffer), `Reaches` (`Spec/Adaptive`) | `C165_when` (exactly which simulations run through) and `C165_raises`: the loop succeeds up to the first call that looks back too far (`gLoop_until`), and there the processor raises (`TapeProc.fails`); `C165_longer_partial`: buffer places and updates are periodic with the least common multiple of update block and chunk; `C165_violated` for the sizes of the shipped example |
| C166 | `fxCreate` (constructor of `FxLMS`), `ancDiagnostics`, `exampleDiagnostics`, `ancSimulate` (`Model/Anc`: the shipped active noise control example from `create_simulator` to the end of `run_simulation`); `AncScene` (`Spec/Anc`) | `C166_anc_runs`: `RoomPlan.setup` gives impulse responses of the right shapes, hence a processor (`AncScene.begin`) and a simulation that C157 covers; `C166_shipped`: the sizes of the example meet the buffer condition up to 150015 samples (`example_reaches`), its diagnostics fit (`exampleDiagnostics_fit`), for any room, positions and noise. Assigning `arrays.path_type[s][m]` is modelled as `PathOp.type`; the recorded secondary paths as a constant, since the arrays do not move; the number of loudspeakers handed to the recording is the number of positions |
| C167 | as C166; `HasType` (`Spec/Anc`: the type of a path as the user gave it) | `C167_reference`: a path of type "direct" or "none" is the identity or zero at all times, also after arrays moved (`PlainPair.update`, `PlainPair.irAt`), the responses have the right shapes (`RoomPlan.shape`), so the closed loop C148 reduces to one term (`convSum_plain`), and C151 records it |
| C168 | as C166; `Recording` (what a recording diagnostic has stored), `throughPath` (sums of convolutions) in `Spec/Anc` | `C168_error`, `C168_shipped`: the closed loop C148 in the room (`AncScene.loop`) with two sources, whose responses do not change for arrays that stand still; C151 for the four recordings (`FxRun.recording`) |
| C169 | `fxCreate` | `C169_created`: case by case along the lookups and assertions |
| C170 | `placedArr`, `movingArr`, `recordAll`, `runScript` (`Model/Scripts`: a script from `create_simulator` to the end of `run_simulation`), `simplestArrays`, `movingArrays`; `ExpectedIr` (`Spec/Scripts`) | `C170_script_runs`: C164 with recordings, which fit (`recordAll_fit`); `C170_script_recordings`: C18 for the completed run, with the impulse responses traced back to the user's choices (`RoomPlan.expected`), C12 for sources, C01 for what recordings hold (`CompletedRun.recording`); `C170_pair`: the two examples |
| C171 | as C170; `debugArrays`, `debugTypes`, `debugProc` | `C171_debug`: the log by C09, the recording by C01, the file by C04, all of the same emitted samples; `C171_direct` as C167 for any processor that keeps the microphone |
| C172 | as C170; `playArrays`, `playProc` | `C172_play`: C131 for the loudspeaker; for the microphone the closed-loop value (`room_mic`) with the loudspeaker's samples at all times (`block_out`), before time 0 too |
| C173 | as C147, C159; `IrMat.firstTaps` (`Spec/Fast`) | `C173_long_paths`: the constructor gives the same processor for the cut paths (`fastInit_firstTaps`), which are short enough for C159 |
| C174 | whole run with `FastBlockFxLMS`, as totality; `FastScene`, `FastShape` (`Spec/Fast`) | `C174_runs_through`, `C174_raises`, `C174_when`: the processor as a tape processor of its own (`fastTape`, `Lemmas/FastTape`), without comparison with `FxLMS` and hence for all paths and buffers; then as C157 and C165 |
| C175 | as C174; `skippedFrom`, `storedFrom` (`Spec/Fast`: the filtered reference with the samples that are left out) | `C175_adaptive`: on the tape the processor does what `FxLMS` does after a history that ends `sim_buffer` mod filter length samples early (`fastPast_rel`, `fastAct_rel`), and the invariant of C143 holds for every such gap (`AInv.begin`, `AInv.call`); `C175_transient`: the sum only meets samples after the gap; `C175_closed_loop` as C148 (`Lemmas/FastMic`) |
| C176 | `fastCreate` (constructor of `FastBlockFxLMS`), `realSimulate`, `realArrays`, `realOps` (`Model/AncReal`: the example with measured responses from `create_simulator` to the end of `run_simulation`); `RealScene` (`Spec/AncReal`) | `C176_runs`, `C176_raises`: as C166 with C174 in place of C157; `C176_shipped`: all updates up to the 292nd fall at least 24 samples into a chunk, the 293rd at 16 (`real_reaches`) |
| C177 | as C176; `streamFrom` (`Spec/AncReal`) | `C177_loop`: the direct path makes the reference the noise at all times, those before time 0 by the preparation of the buffers (`RealScene.direct`); then C175 with the recorded error, which is the sum of the contributions by the closed loop; `C177_shipped`: the response set by the user is in use (`RoomPlan.given`, from C40) |
| C178 W | `Model/FastBlock` on the simulator | chunks: the tape run does not contain the chunk size; buffer: bisimulation of two tape runs; the history of a cold start is constant, so only the last two prepared blocks and their place matter (`fastStart_phase`), or it is silent (`fastPast_silent`) |
| C179 | as C175 | as C149, from C175: step size 0 keeps the taps 0; silence by induction over time |
| C180 | as C175; `FxPar.louderFast` (`Spec/FastScale`): `beta` times the square of the factor | as C152, from C175: the stored filtered reference, including the part laid over the history, is homogeneous (`storedFrom_scale`); strong induction over time |
| C181 W | runs as in C175; `LaterFast` (`Spec/FastLater`) are the two runs | as C156, from C175; `C181_partial` for reference microphones that hear nothing in the first block: at a cold start the history is constant, so it is then silent, too (`fast_past_quiet`), and nothing is left out of the filtered reference (`storedFrom_quiet`); witnesses are runs computed by the kernel |
| C182 | runs as in C175; `Spec/Renumber` as for C155 | as `C155_renumber`, from C175: the stored filtered reference with renumbered channels (`storedFrom_renumber`), strong induction over time |
| C183 | as C151, with the preparation of `FastBlockFxLMS` | as C151: `DiagRun` for a processor that acts on the tape (`FastRun.diagRun`); taps by `C175_adaptive` |
| C184 | as C109, C110 and C123, for a processor that prepares itself; the two examples with `FxLMS` and `FastBlockFxLMS` from the arrays to the end of the run | relation between the two runs (`StRel`, `Alike`) kept by `prepare` (`PrepIgnores`) and by every step; the processors use "ref", "error", "loudspeaker" and "xf" only (`fxProc_ignores`, `fastProc_ignores`); without "eval" the list of diagnostics is shorter by one (`ancDiagnostics_eval`); the shipped script by `C176_shipped` |
| C185 | as C111, for a processor that prepares itself; the two examples with `FxLMS` and `FastBlockFxLMS` from the arrays to the end of the run | relation between the two runs (`CPerm`, `StRel`) kept by `prepare` and by every step (`runWith_perm`); the number of channels and the diagnostics do not depend on the order (`fxCreate_nums`, `ancDiagnostics_perm`); responses and path types set by the user are the same (`ops_perm`); the shipped script by `C176_shipped` |
| C186 | as C127, for a processor that prepares itself, with `FxLMS` and `FastBlockFxLMS` | the processors write nothing but "loudspeaker" and "xf" (`fxProc_mutes`, `fastProc_mutes`); the signals of silent sources stay zero and the others equal (`StRelS`) through `prepare` and every step (`runWith_mute`) |
| C187 | as C125, for a processor that prepares itself, with `FxLMS` and `FastBlockFxLMS` | every update generates the responses that are there already and every exchange keeps the filter (`room_runWith_still`) |
| C188 W | `run_simulation` called any number of times with a processor that prepares itself (`Model/AgainWith`, `AfterRuns`), `FxLMS` and `FastBlockFxLMS` | what the two processors share as `AncTape`: the update counter after n runs (`AncTape.after`), taps between updates (`stills`), position of the sources (`produced`), finished recorders change nothing (`runWith_watched`), completion and `ValueError` from where the updates fall (`completes`, `raises`) |
| C189, C190 | as C106 and C107, for setup and run with `FxLMS` and `FastBlockFxLMS` (`ancSimulate`, `realSimulate`), and the shipped script with measured responses | what a run shows does not depend on coordinates once the generated paths do not (`outcomeWith_mapPos`), construction of arrays and paths included (`planned_mapPos`) |
| C191 | as C128, for setup and run with `FxLMS` and `FastBlockFxLMS`; that the calls of `set_prop_path` succeed is part of it | setup related by `KFull` (`roomSetup_given`), lifted through runs with a processor that prepares itself (`runWith_given`); shapes of generated responses from `RoomPlan.setup` |
| C192 | as C120, for completed runs with `FxLMS` and `FastBlockFxLMS`; diagnostics of the two runs may differ otherwise | same engine state after the same number of steps (`C120_prepared`); recordings and exports from C151/C183 for both runs (`Holding.take`, `longer_exports`) |
| C193 | as C124, for completed runs with `FxLMS` and `FastBlockFxLMS`; `ShortResponses`: no response of the package is longer than either length | the set-up gives paths that differ in zeros at the end (`roomSetup_length`); `runWith_length` for a processor that does not look at the paths, `same_runWith` for `FxLMS`, whose own copy of the secondary paths differs in zeros (`fxProc_same`); `fastInit_same`: the same processor for `FastBlockFxLMS` |
| C194 | as C122, for completed runs with `FxLMS` and `FastBlockFxLMS`; `SamePlace`: same positions at every update, same path types | the closed loop C148, C175: every microphone is a convolution of the same source signals with the responses in force; these come from the positions at the last update (`RoomPlan.expected`) and are the same for the two channels (`createPath_place`, `SamePlace.responses`) |
| C195(W) | as C129, for completed runs with `FxLMS` and `FastBlockFxLMS` (`ancSimulate`, `realSimulate`) | preparing prepared arrays changes nothing but types (`roomSetup_again`), so the processor and the run are the same by the relation of C191; if anything moves, the first update raises (`runWith_stuck`) |
| C196 | as C126, for `ancSimulate` and `realSimulate`, with paths and path types set by the user (`planned`) | leaving out groups commutes with `setup_ir`, `update`, `set_prop_path`, `set_path_type` and with making the processor (`update_ungroup`, `op_ungroup`, `fxCreate_ungroup`); runs by `runWith_arr` |
| C197 | as C13, for complete runs with `FxLMS` and `FastBlockFxLMS` (`ancSimulate`, `realSimulate`) and their recordings | `C13_prepared` step by step, `C120_prepared` for other diagnostics; recordings by C151 and C183 (`Holding.agree`) |
| C198(W) | `LinearChirpSource` (`Model/Chirp`), with the cosine a 1-periodic function of the phase in turns; the statements after the first one of the constructor are modelled as if they were reached (without `super.__init__`, line 496) | state after `j` samples in closed form by induction (`chirpAt_spec`), number of samples a request writes by induction on the rounds (`chirpLoop_at`) |
| C199 | `linear`, `db_power`, `db_amplitude`, `natural_log` and `clip` on arrays with numbers, `-inf` and `nan` (`Model/Level`), after `smooth` of numbers; exact real arithmetic | the level is characterised by `10^(y/10)` (`IsLevel`), which determines it (`isLevel_unique`); smoothing by C94 |
| C200 | whole run with `FxLMS` or `FastBlockFxLMS` on any two configurations (`FxScene`, `FastScene`); what a microphone hears of the noise is the convolution sum over the free sources (`Spec/Heard`) | induction over the time index: the closed loop (C148, C175) splits into noise and loudspeakers (`convSum_heard`), and the loudspeakers up to `t` depend on what was recorded before `t`; before time index 0 the microphones hold the noise (`tInit_noise`) |
| C201(W) | `Sequence.get_samples` (`Model/Sources`), branches 'zeros' and the last one | the first request of any list of requests |
| C202 | as C200, with arrays in a room (`InRoom`, `SameNoise` in `Spec/SameNoise`) | what a microphone hears of the noise is the sum over single loudspeakers (`noise_speakers`), which is invariant under permutation; created paths do not depend on the random state (`createPath_state`); then C200 |
| C77 | whole run, as totality; `Diag.Fits` (`Spec/Total`) says when a diagnostic of any class fits | invariant: every operation of a step has arguments of the right shape; per class: every piece that can come up is saved, every export that can be due can be computed |

## Disagreements between properties and code

Violated properties keep their full statement in `properties.jsonl`; the manifest
marks them `partial`: theorems with suffix `_partial` prove the guarded version, theorems
with `_violated` in the name that the unrestricted claim is false of the code.

* C15: without `start_sources_before_0` the microphone history before time 0 is not
  silent: `prepare` adds the one computed sample to the slice `[:, :sim_buffer]`, where it
  is broadcast.
* C17: `sim_buffer < 4` and no processor gives a block size of 0 and wrong recordings.
* C20: exports after the last save index `(tot/f)*f` of a state diagnostic never happen.
* C21: an export before the first save returns everything stored.
* C24: the moving averages of `SignalPowerRatio` restart with each saved piece.
* C25: `StatePower` exchanges `save_frequency` and `export_at`.
* C26: `from_frequency` with `include_zero` and `f | max` has one interval too many.
* C31: `Sequence` in raise mode never delivers the last sample and ignores `amp_factor`.
* C33: coloured noise with several channels depends on the request sizes.
* C39: an array that is neither microphone nor source stays registered after the exception.
* C43: a moving microphone without sources, and a user path of a moving array, raise in
  the first update.
* C41: `setup_ir` raises for every pair with an array without points (documented as the
  separate theorem `C41_empty_arrays`).
* C46: a path of the user with one value is taken for a stored path that repeats it (numpy
  broadcasts in the comparison); trajectories, directivity, update frequency, positions within the tolerance, room
  parameters without image-source paths, and the global constants are not compared.
* C47, C78: user paths of different length make the search raise; the default type
  "random", offered by the documentation, is rejected when the configuration is loaded.
* C48: an interruption while a session is written breaks every later creation.
* C49: `load_from_path` with a figure folder always raises, since `metadata_sim.json` is
  never written.
* C50: the configuration object and the constants of the image-source package are shared.
* C52: a processor with a unique name can be renamed.
* C54: after all phases have finished the counter stays in the last phase.
* C60: `CombinedRegion` draws its regions in reversed order.
* C61: rectangles and discs in space answer a single `False`; `CombinedRegion.is_in_region`
  always raises.
* C63: a last corner within the tolerance of the first is never visited.
* C64: `constant_time` divides the period by the number of points, not of segments.
* C66: offset 1 loses a point; the lower side is returned in reversed order.
* C67: fewer points than circles raise `ZeroDivisionError`.
* C70, C71: numbered names with gaps or zero padding, and the number `-0`.
* C75: `MLS` takes an argument `state` and ignores it; the sequence always starts with ones.
* C76: the time plot and the spectrum of one diagnostic have the same file name.
* C79: with an even number of points on the lower side the alternation is broken.
* C82: the rows of the signals are flipped, the rows of the positions are not.
* C83: a label with an underscore is compared before and stored after its translation to
  LaTeX, and so never recognised as a duplicate.
* C84: silence is divided by its peak 0; a fade of one sample does not fade out.
* C85: two or more export functions with the default keyword arguments fail an assertion;
  `spectrum` on a signal diagnostic always raises.
* C86, C87: numbers of points near (relative 1e-5) a square are accepted.
* C88: the spacing is `2r/(⌊2r/d⌋-1)`, always larger than `d`.
* C89: `offset_angle` is not used.
* C90: `num_points % 4` points are lost.
* C92: `SignalSummary` adds the values of `summary_func` for the pieces of the range, which
  depend on the chunk size.
* C95: `measure_rt60` is called on the room object of the last batch of 500 microphones.
* C96: the source starts from silence and runs only `order` samples ahead, so its first
  samples have less than the given power.  The run ahead of all channels also uses the
  noise power of one channel at a time.
* C97: `add_arrays` copies the types but not the paths set by the user.  Paths of a bare
  collection are replaced by generated ones; those of an existing simulator ("modified")
  are missing, and the new simulator raises `KeyError`.
* C98: plots with images (`.png`) make the next plot raise; a PDF file of the same name is
  overwritten; earlier plots of diagnostics with a dot in the name are not removed.
* C99: with `highpass_cutoff > 0` the paths "direct" and "random" are filtered, too; of a
  direct path one sample remains, less than 1.
* C100: the overlap check tries grid points and 100 random points only; two boxes that
  overlap elsewhere are accepted, and the volume of the overlap is counted twice.

* C103: a source without a generator uses `default_rng(123456)`, so all of them deliver the
  same numbers.
* C104: `WhiteNoiseSource.set_power` assigns before it asserts; after a rejected array every
  request raises.  `GoldSequenceSource.set_power` accepts arrays of every length.
* C105: `SineSource` and `BandlimitedNoiseSource` multiply an array of shape (channels,) with
  one of shape (channels, samples): this raises, or gives the powers to samples instead of
  channels if there are as many.
* C108: `sosfilt_zi` is the steady state for a constant input 1, but the input is noise of
  any power: the first samples contain minus the step response of the band-pass filter, also
  for power 0. The power of the noise is relative to the test signal, which is itself random
  and contains the onset of the filter.
* C113: `ir_room_image_source_3d` raises `NotImplementedError` for every directivity other than
  "omni", and the other path types ignore it.  `example_directional_mic.py`, whose microphone is a
  cardioid, therefore always ends with this exception in `create_simulator`.  (Its default `dir_type_mic=None` raises
  `TypeError`, too; nothing in the package uses the default.)
* C114: between the frequencies `c/(4d)` and `c/(2d)` the strongest response is off the axis.
* C115: the default `desired_sr=None` is compared with a number and raises; the default
  `num_channels=None` raises whenever the samplerate changes; files with one channel fail
  `assert audio.ndim == 2`; more channels than the file has are not noticed.
* C116: the file is opened for writing before it is known that the values can be written;
  after a value that JSON does not know, its content is lost and cannot be read any more.
  Processors with the same name overwrite each other.
* C117: `SourceArray` has no `num_channels`, so no array accepts it; it passes the amplitude
  as first argument, which is the number of channels; its sources share the default seed.
* C118: `CircularTrajectory.plot` has step 0 for periods below 1000 samples, and `create_simulator`
  draws the arrays even if no figure is wanted; the number of samples is not used there.
  `LinearTrajectory.plot` leaves out the way from the last corner, and draws nothing in the
  last part of the period with equal times.
* C119: `MultiSineSource` stores its frequencies as numpy array in its metadata, which cannot be
  written; `set_source` and `set_groups` do not update the metadata of the array; the names
  of pairs, `src->mic`, can coincide.
* C129: arrays loaded with `load_from_path` have impulse responses, so `set_default_path_type`
  marks all of them as "modified", and `update_path` raises for the first array that moves.
* C195: the same with adaptive noise control: sessions with a moving array cannot be run again
  (`C195_fxlms_violated`, `C195_fast_violated`); `C195_fxlms_partial`, `C195_fast_partial` are for standing arrays.
* C135: with normalization "sample" and an update block of two or more samples, each
  sample of the block is divided by its own energy, so the step is not along the
  gradient; it can raise the error, and does so in the witness. With "block" the sum of squares
  is over the block only while the taps reach back `filt_len` samples; a block in
  which the filtered reference is small gives a step that is too long.
- C136: `SummaryDiagnostic.__init__` (`diagnosticsummary.py:69`) still passes `block_size` to `Diagnostic.__init__`, which no longer has that parameter: eight arguments for seven parameters, `TypeError` for every `SignalPowerSummary`, `SignalPowerRatioSummary` and `SignalPowerSpectrum` of this module (the classes of the same purpose in `diagnosticscollection.py`, C92, work).
- C137: `mean_near_time_idx` slices from `timeIdx - 3000`; for `timeIdx < 3000` this is negative and counts from the end, so for a recording of 3000 samples or more the selection is empty and the result `nan`.
* C140: `room_size = (7, 5, 2.5)` (a tuple), or any numpy value in the configuration, is accepted
  and written as a node with a Python tag, which `yaml.safe_load` refuses. The figure folder cannot be
  loaded, and with a session folder every later `create_simulator` that reaches this session raises (`C140_violated`, `C140_violated_session`). A room size that is a numpy array makes `equal_audio` raise `ValueError`, as the truth value of an array is ambiguous (`C140_violated_compare`).
* C143: `FxLMS.prepare` filters the reference up to time 0, the first `update_filter` starts at
  time `block_size`: with a block size above 1 the reference samples in between never enter the
  secondary path filter, the stored filtered reference is 0 there and a block too early in the filter's memory afterwards (`C143_violated`, block size 2: first tap `-7/2` in place of `-11/2`).
* C144: at a cold start `Propagator.prepare` fills the whole history of a microphone with its sample of time 0 (numpy broadcasts
  the one column); `FxLMS.prepare` filters this history, so with a secondary path as long as the buffer the run depends on `sim_buffer` (`C144_violated`).
* C147: `FastBlockFxLMS` sets the secondary path to 0 from tap `filt_len` on (after the delay of a block), where `FxLMS` uses all of it (`C147_violated`);
  its `prepare` filters whole blocks of `filt_len` only, so the end of the history is left out for other buffer sizes (`C147_violated_buffer`).
* C149: with a normalization and `beta = 0` the code divides by zero as soon as the reference has been silent for a window (a block): `1/0 * 0` is `nan`, and the control filter and the loudspeaker signals are `nan` from then on. The theorems about runs with `FxLMS` and `FastBlockFxLMS` (C143, C144, C147-C149, C151, C152, C155, C156, C173-C175, C178-C182) have the hypothesis that the denominator is never zero (`FxScene.regular`), as for `beta > 0`; a run with `beta = 0` that never meets a silent window is not covered.
* C153: `equidistant_rectangle_old` places a point outside the rectangle if a side is too short for a point of its own (`int` of a negative number rounds up), raises for `offset=0` if two or more points lie on the last side, and returns points that are a quarter of the circumference apart for fewer than four points.
* C154: `equidistant_rectangle_for_fewer` divides by zero for no points, shares the faults of C153 from four points on (with the draw as offset), and places two points on the same half of the same side, never opposite each other.
* C156: the first block of `FxLMS` is not like the others. With a block size above 1 the reference samples of the first block do not pass the filter of the secondary paths at their time (C143); with any block size the past of the microphones holds the first sample of the sources (C15). Both change the control filter, so a run with a leading silence ends with other taps.
* C160: an image is drawn between the outermost microphones and divided evenly, so values of unevenly spaced microphones are drawn elsewhere.
* C161: `compare_soundfields` asks for a list and uses the attribute `shape`; arrays of the documented shape fail in the sorting, arrays to plot are used both as arrays of numbers and as objects with a method `plot`.
* C165: whether an update of `FxLMS` finds the `update_block_size + filter length - 1` samples it needs depends on where it falls in the chunk; nothing checks `sim_buffer` (`configutil.py:36` says it should). With the sizes of `example_active_noise_control.py` the update at sample 150016 raises `ValueError` (`C165_violated`), so the example runs with its 10000 samples and not with 150016 or more. An update with fewer than `update_block_size` samples before it is modelled as raising `ValueError` (line 142), provided the filter package accepts the block cut short.
* C176: the example with measured responses has the sizes of C165 too, and `FastBlockFxLMS` looks back one sample further; with 150016 samples or more it ends with `ValueError` (`C176_shipped`). Its filtered reference never sees the last 488 samples of the noise before time 0, as 1000 is not a multiple of 512 (`C177_shipped`).
* C178: `FastBlockFxLMS.prepare` lays its blocks over the history from the beginning of the buffer and leaves out what remains (`sim_buffer` mod filter length samples before time 0); at a cold start the history holds the sample of time 0, so the first updates depend on this remainder (`C178_violated`).
* C181: as C156 for `FastBlockFxLMS`: what the reference microphones hear in the first block (for a block size above 1) or at time 0, which is also their whole past (C15), enters the filtered reference in another way than later samples (`C181_violated_block`, `C181_violated_past`).
* C188: nothing sets the counter of an adaptive processor back, so in a second run the first update can come after fewer samples than in the first one, when the new buffer does not yet reach back far enough; the run then raises `ValueError` although the first one completed (`C188_violated_fxlms`, `C188_violated_fast`).
* C198: the constructor of `LinearChirpSource` raises `NotImplementedError` in its first statement (`C198_violated_create`), so nothing of the class can be used. Were it removed, `super.__init__` without parentheses (line 496) would raise, and `get_samples` would end requests that go over one end of a sweep more than they have whole sweeps with zeros (`C198_violated_requests`, `C198_violated`): `range(1 + num_samples // samplesToSweep)` is one round too short for them. It returns one row whatever `num_channels` is.
* C201: `Sequence` documents the end mode 'zeros', but `get_samples` raises `NotImplementedError` for it at every request, also while the audio lasts (`C201_violated_raises`).

## Axioms

`#print axioms` for every theorem of the manifest gives a subset of
`propext`, `Classical.choice`, `Quot.sound`.

## Mutation tests

`seeded/LOG.jsonl` lists the edits of model definitions, the claim each one breaks, the
theorems that stopped to hold and the ones that were tightened because they survived.

## Random numbers

Most theorems hold for every outcome of the random generator (a function of the draw
number). C101 to C103, C105 and C108 are about distributions: there the draws are any sequence of
independent random variables that are uniform on [0,1) or standard normal;
`uniformDraws_exist` and `normalDraws_exist` show that there are such sequences.

## Not modelled

Drawing, metadata JSON contents other than those of C95, `aspcore`, `scipy`,
`pyroomacoustics` internals, floating point, printing, the effect of export functions on
files (in the run of the simulator an export is the data handed over; the choice of
functions and arguments is `Model/Plot.lean`), and directivity beyond "omni or not".

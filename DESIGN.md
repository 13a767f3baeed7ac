# Formal model of QuakeMigrate: design

## 1. What this is

`/verif/lean` is a Lean 4 model of QuakeMigrate (Python package `quakemigrate`
and its C library), written function by function from the source in `/repo`,
with theorems about it. Each model definition cites the file and lines it
models. Properties are listed in `properties.jsonl` (C01, C02, ...); the status
of each, with exact theorem names, is in `MANIFEST.json`.

Layout (`lean/Verif/`):

* `Py.lean`, `Py/*.lean` - Python/numpy/pandas primitives used by the code
  (slices, round-half-even, first-argmax, median, division that fails on 0).
* `Model/*.lean` - the model, one file per source area.
* `Spec/*.lean` - small specifications, written without the model's helpers.
* `Lemmas/*.lean` - helper lemmas.
* `Props/*.lean` - the property theorems (`C07_...`), each followed by an
  `example` showing a concrete non-trivial case that meets the hypotheses.

## 2. Trusted base

* Lean 4.33.0's kernel. Axioms: at most `propext`, `Classical.choice`,
  `Quot.sound` (checked by `#print axioms`; listed in section 6).
  No axiom of our own, no `sorry`, no `native_decide`, no `bv_decide`.
* The reading of the code. The code is never run here. The tie between model and
  code is the line citation on every definition.
* Idealisations used throughout:
  * **Numbers.** Python/numpy floats are modelled by rationals (`ℚ`) or by
    elements of an arbitrary linear ordered field, or by reals where `exp`/`log`
    are used. Rounding error of float arithmetic is not modelled. NaN/inf are
    modelled as `none` exactly where the code branches on them or where a
    division by zero can occur.
  * **Times.** `UTCDateTime` is an integer or rational number of seconds (or
    samples, or microseconds, as stated by each definition) since an epoch which
    is a midnight; a day is 86400 s. obspy's day arithmetic is modelled by
    floor division, which has no leap seconds, as in obspy.
  * **pandas / obspy / scipy** are parameters or are modelled by their documented
    list semantics (`groupby` on a monotone key = consecutive groups, `idxmax` =
    first maximum, `merge(method=-1)` of contiguous traces = concatenation).
  * **Files** are finite maps from names to contents; a write replaces the whole
    file atomically. Torn writes are not modelled.
  * **Threads** (OpenMP) are modelled by interleavings of atomic array updates.

Not modelled: plotting, GUI, Fortran/skfmm eikonal solvers and NonLinLoc
binaries (their output tables are arbitrary parameters), signal filtering and
instrument response removal, messages logged by other libraries, run directory creation, ctypes marshalling.

## 3. Plan per property

| id | model | proof |
|----|-------|-------|
| C01 | `detect`: number of steps `ceil((end-start)/timestep)`, window of step i, midnight shift | arithmetic on `ceil` over ℚ |
| C02 | `_continuous_compute` as a recursion over per-step outcomes (`Except`) | induction over the outcome list |
| C03 | `ScanmSEED` state (stream, written flag, day files), `append`, `write`, `empty` over integer sample numbers | invariant by induction over appends; refinement to "list of all samples split by day" |
| C04 | same machine, crash = stop after any prefix | invariant; corollary of the refinement |
| C05 | `_data2int`, clip, factors; round-half-even over ℚ | bounds on rounding |
| C06 | `read_scanmseed` over a map of day files, trim, first merged trace only | refinement on contiguous files; witness for a gap (code drops the data after it) |
| C07 | `trigger` loop with fuel proved sufficient | induction; partition of intervals |
| C08-C09 | `_identify_candidates` on lists of samples | run-splitting lemmas |
| C10-C11 | `_refine_candidates` (pairwise split, group, max) | chain/pairwise induction |
| C12 | `_filter_events`, discarded set in `_trigger_batch` | membership, sublist |
| C13 | composition of C07, C12 on the sample grid | interval disjointness |
| C14 | `_get_threshold`, `chunks2trace` | chunk lemmas, locality |
| C15 | setter state machine | witness of violation + partial invariant |
| C16 | EventID string formatting from date fields | digit-string injectivity |
| C17 | module-global column list as state | witness + partial |
| C18 | `read_triggered_events` day loop and filter | interval partition; witness |
| C19 | `_locate_events` over per-event outcomes | induction |
| C20-C22 | `trim2window`, `mw_times`, sample counts of `_compute` | list arithmetic; witness for C20 |
| C23 | `_covfit3d` weighted mean and variance | convexity |
| C24-C25 | `_splineloc` window/fallback logic with the interpolant as a parameter, `_mask3d` | interval arithmetic |
| C26-C29 | C `migrate` over flat arrays with checked reads; wrapper with floor/log/exp over ℝ | index arithmetic; geometric mean inequalities |
| C30 | interleavings of per-node programs writing disjoint cells | commutation / confluence |
| C31 | `find_max_coa` | fold invariants |
| C32 | `calculate_onsets` and `serve_traveltimes` key order | list filter/zip lemmas |
| C33-C36,C38,C39 | C and Python STA/LTA loops over a field | loop invariants (running sums); witnesses |
| C37,C40 | `_onset` combination, clip, `_trim_taper_pad` | bounds, list index |
| C41-C46 | `util.py` | arithmetic, list lemmas; witnesses |
| C47-C50 | `Grid3D`, `serve_traveltimes` | div/mod and rounding |
| C51-C52 | `LUT.__add__`, `__init__`, save/load | witness + partial |
| C53 | `_bilinear_interpolate` | convexity; witness |
| C54-C56 | `check_availability`, `_load_from_path`, `read_stations` | decision logic |
| C57-C60 | picker windows, `_find_peak`, `_fit_gaussian` with the fit as parameter, threshold | list lemmas |
| C61-C66 | amplitude windows, peak-to-trough, magnitudes | arithmetic, convexity |
| C67-C68 | availability files | map refinement |
| C69-C70 | exporters | list lemmas; witness |
| C71-C72 | the day files written by `trigger` over several runs | file-map induction; witnesses |
| C73 | `ScanmSEED` writes of blocks that start off the sample grid | witnesses; off-grid runs with an offset below half a sample by induction over blocks; the on-grid case is C03 |
| C74 | `_read_event_waveform_data`: padded window against cut and magnitude windows | interval arithmetic |
| C75-C76 | pick window construction, `pick_phases` table | interval arithmetic, list lemmas; witness |
| C77 | `Archive.path_structure` glob patterns, a matcher for `*` | `splitOn` lemmas on paths; witness |
| C78-C80 | Snuffler marker times, MFAST SAC headers | digit strings; folds over rows; witnesses |
| C81-C82 | `_logA0` over ℝ | strict monotonicity of `log`; witness |
| C83 | `find_peaks` as scipy computes it (plateaus, prominences), composed with `_peak_to_trough_amplitude` | between two peaks kept there is a trough kept unless they are level; witness |
| C84 | loops of `get_amplitudes`, labels and `.loc` assignment | induction over the loop; witnesses for other labels |
| C85 | filter checks of `Amplitude.__init__` | cases; witness |
| C86 | `read_waveform_data`, `merge_stream`; obspy's `trim`, `merge(method=-1)` | membership lemmas for trim and join; induction over sorted records (invariant: sorted, one grid, consistent) for the gaps |
| C87 | same | a channel of the merge is the merge of the channel; permutations |
| C88 | same | cases; witness |
| C89 | `Event.write`, `LUT.precision` | cases over columns; rounding bounds |
| C90 | same | cases; witness |
| C91 | `Run`, the writers' paths, pathlib `with_suffix` | injectivity by cases; witnesses |
| C92 | `calculate_magnitudes`, `_calc_mags` | cases; monotonicity of the logarithm |
| C93 | `write_cut_waveforms`, `get_waveforms`, `get_real_waveform`, `get_wa_waveform`, their calls in `_locate_events`; response removal and trimming are parameters | induction over traces; violation by cached waveforms |
| C94 | `_gaufit3d` over the reals; `pinv` and `eig` are parameters with the Moore-Penrose conditions and the characteristic polynomial as assumptions (shown satisfiable) | unisolvence of quadratics on a block of nodes, linear algebra; violation of the uncertainty |
| C95 | `traveltime_to` with scipy's linear interpolation on unit-spaced nodes written out over the reals; `index2coord(inverse=True)` without projection in front of it, as the callers do | product of one-dimensional interpolations; triangle inequality; violation of interpolation at the hypocentre |
| C96 | `compute_traveltimes` dispatch and `_compute_homogeneous` over the reals; solver tables are parameters | induction over phases; Euclidean distance of Mathlib as specification |
| C97 | rows of a velocity model over the rationals; `np.interp` and the layers of the control file written out | induction along the rows; uniqueness of the profile |
| C98 | `_compute_1d_fmm` with the solver as parameter; source node by `argmin` over all nodes | exchange of one coordinate; nearest integer |
| C99 | files as a map from paths; programs as lists of files written | induction over stations and phases; violation for `model` |
| C100 | the arguments of `locate` and reading of trigger files (Model/ScanObject) | reduces to C18; violations by evaluation |
| C101 | scan and onset objects in a store, shared by reference; a session is a list of actions | invariant over all later actions; violation by a session whose migration is undefined behaviour (C26) |
| C102 | constructor and setters on the same store | case analysis; violations for all states |
| C103 | header tokens and bytes of NonLinLoc files, decoding as a parameter (Model/NllocRead) | induction over the loop of stations and phases; index arithmetic of the reshape |
| C104 | the transformation line of the header to PROJ parameters | evaluation for all numbers; violations |
| C105 | a run directory as maps of files; calls of `locate` as prefixes of their writes; export as a loop (Model/Catalog) | invariant over all writes (picks before event, amplitudes of some event) |
| C106 | same | frame lemma for writes of other events; comparison with a fresh run |
| C107 | origins and ellipsoid of an event row | algebra; cosine < 1 off the equator |
| C108 | tables of cells, formats by column (Model/AmpsWrite) | induction over the formats; digits by the integer logarithm |
| C109 | `_get_distances` after `read_stations` | algebra in both units |
| C110 | all batches of a `trigger` run reading one scan, each with its pad (Model/Trigger) | peaks of runs above the threshold seen by both batches; the later event would be in the group of the earlier one |
| C111 | histories of `detect` calls with crash points into one directory (Model/DetectRuns) | files after one call by C03 and C04; induction over histories; pieces between midnights touch disjoint days |
| C112 | all batches of a `trigger` run reading one scan (Model/Trigger) | the run of samples of the burst is one candidate, apart from all others, in every window that has the burst; the batch of its peak reports it |
| C113 | a detect call, its files, their padded reading by every batch and the trigger run (Model/DetectTrigger) | composition of C03, C05, C06, C07 and C112; margins cover the encoding |
| C114 | one call of `_compute` (Model/ComputeStep) for detect and locate windows | composition of C22, C27, C28, C31, C32 and C47; uniqueness of the reported peak gives independence of timesteps and threads |
| C115 | detect, trigger and locate in sequence through the files (Model/Pipeline) | composition of C113, C07, C13, C71, C18 and C19; witness by computation for the normalised trigger |
| C116 | the coalescence of C114 for onset functions that peak at the arrivals from one node | strict monotonicity of the product over the pairs, then C114; witness for nodes closer than a sample |
| C117 | detect and locate from onset functions: what `_compute` gives for each window, or nothing where there is no data, handed to the models of C03, C113 and C115 | derives the hypotheses of C113 and C115 from C114 and C116; with the median ratio or the MAD, of the dynamic C113 and C115 from C144; worked cases from onset functions to one event |
| C118 | `Doubles.fl` (rounding to the nearest double), windows of detect and locate in nanoseconds, `timespan*sampling_rate + 1` | Kahan's theorem on (m/n)*n for n a sum of two powers of two; violation for all starts and timesteps by shift invariance and kernel computation per pad |
| C119 | `trim2sample` and `pad` in doubles | error bounds of three roundings; counterexample for every trigger time |
| C120 | `mw_times` in doubles | scaling by 4 is exact; product bounds; counterexample |
| C121 | `detectWindow`, `nSteps` in doubles | relative error of three roundings is below half a nanosecond; a microsecond is more than the rounding of the quotient |
| C122 | scipy's `gaussian_filter1d` written out: radius, weights, reflection at the ends | bounds of weighted sums; distance of reflected positions; mirror symmetry of sum and reflection |
| C123 | `gaussian_3d` and `_gaufilt3d` over the reals: kernel, convolution (mode same), mirrored second pass, division by the maximum | the two passes are a convolution with a product of three 1-D kernels; the 1-D kernel is evaluated and compared node by node |
| C124 | the two C loops with every operation rounded; with no rounding they are the model of C33 | error of the running sums by induction over the samples; closed form of the sums over a glitch; the sum is constant inside a gap |
| C125 | taper, merge and pad of one channel, with the options of the availability check | case analysis of the check; invariant over the merge; window ratios of C33 and C34 |
| C126 | pre_process: resampling of C44, Nyquist check, ObsPy's band-pass with its fall-back, the exceptions detect catches | closed form of the filter chosen at each rate; induction over the stream; C02 for the run |
| C127 | the filter functions of Amplitude, with the filter applied and the one whose gain is removed | case analysis on the rate |
| C128 | linear detrend by least squares, RMS, STD, envelope (parameter) over the reals | orthogonality of the residuals to constants and ramps |
| C129 | the attributes of a table, update_lut, serve_traveltimes of C28 | induction over the stations and phases of the old dictionaries |
| C130 | a heap of dictionaries, the constructor, the handlers of old names | case analysis; concrete session for the sharing |
| C131 | sac_mfast: loops over stations and components, exceptions, files | induction over stations and components, C79 for the arrivals |
| C132 | date, hour, minute, seconds and uncertainty of a line, rounded as the format does | bounds on floor and rounding |
| C133 | the constructor, later assignments, the threshold and fraction used by pick_phases | induction over the history of assignments |
| C134 | the grid from projected corners, index2coord, extents of grid and network | monotone projections axis by axis; a conic projection for the violations |
| C135 | strip, every-second and pairing in get_phase_component_strings, select by component | membership lemmas for strip and intersperse; general witnesses for the violations |
| C136 | the migration kernel with a rounding after every operation; rounding, log and exp as parameters | error of a rounded sum by induction; bound on the exponent; two-sided bounds for the maximum and the normalised value |
| C137 | trigger batches with two settings of the intervals | the list of candidates is cut between neighbours; more cuts refine the groups, and the largest of a union is the largest of one of the parts |
| C138 | trigger batches with two thresholds | largest sample and containment of runs; concrete scans where a higher threshold adds or loses an event |
| C139 | one step of detect with permuted stations, phases and tables | products over permuted lists; the reported peak is unique |
| C140 | one step of detect with more onset functions | the constant factors leave the order of the nodes unchanged |
| C141 | one step of detect and of locate with noisy onset functions | bounds of the product from below at the source and from above at the reported node |
| C142 | the stages of C117 with noisy onset functions | one event from one burst as in C117; bounds of C141 at the largest sample |
| C143 | the writes of a history of locate calls, each stopped after any number of writes (the model of C106) | a consistent set of writes determines the directory (induction on the writes); completed calls contain every write |
| C144 | the thresholds of C14 on records with a burst | a median is between the bounds of the majority (from the halves property of the median), so is the MAD; C112 for the events |
| C145 | detect with gaps, its files, the trigger (models of C113) | gap samples are read back as zero; every reported event is at a sample that reaches its threshold; witness by evaluation of the model |
| C146 | `_plot_station_availability` and the station list as functions of the availability table (SummaryPlots.lean) | cells of a phase in station order; sums of 0/1 values are counts; partition of the columns by phase |
| C147 | `_plot_text_summary` numbers, `LUT.precision` | bounds on rounding (C89), exponent of the spacing |
| C148 | `range_order`, norm and shift of the gather | a monotone permutation is the identity; fold invariant for the norm |
| C149 | `calcMagnitude`, `plotAmplitudes` as functions of the table (AmplitudePlot.lean) | each cross is the predicted amplitude of its own magnitude; monotonicity of powers of ten; bounds on minima and maxima |
| C150 | `labelStations` as a loop over the marks with its state | induction over groups of observations of a station; counterexamples computed |
| C151 | the figure as `Except`, composed with the event loop (Locate.lean) | cases of the limits; existence of a distance from C63; the loop stops at an exception |
| C152 | `pick_summary` as a function of phases, windows and samples, with exceptions of indexing and `max` (PickPlot.lean), composed with the picker's windows and the event loop | cases over axes; the bounds of C57 and the pads; the loop stops at an exception |
| C153 | `idx_max`, `slices`, the panels of `LUT.plot`, `_make_ellipses` (MapPlot.lean), projection as parameter | first maximum over nodes in C order; the three index orders case by case; algebra of equally spaced edges; counterexamples computed |
| C154 | stations shown, traveltimes and norms of `event_summary` as `Except` (EventSummary.lean), composed with the event loop | nearest samples of times more than a sample apart differ; cases of the loop |
| C155 | `toScan` maps the LUT with its dictionaries and 3-D arrays to what the scan reads, C order (DecimatedScan.lean); composed with `decimate` and `compute` | kept nodes carry the traveltimes of the nodes they stand for, so have their coalescence; the map of nodes keeps the C order, so the first maximum is the same |
| C156 | `triggerReport` is the text of `Trigger.__str__`, numbers printed by a parameter; `triggerRun` is the run with those settings (Reports.lean) | the text is cut into lines; labels tell the methods apart; equal lines give equal numbers, and the run depends on no other setting |
| C157 | `lutLines`: the lines of `LUT.__str__` on top of the grid model | corner lists computed; violation: the text up to the first degree sign |
| C158 | `pickerReport`, `ampReport`, `magReport` and the settings the calculations use | lines of known beginnings, optional ones told from what follows; violation by a second object |
| C159 | `trigger` of Trigger.lean with the smoothing of Smooth.lean; a second archive that holds the same data k days later | every stage commutes with the map on rows; batches by their recursion, midnight is preserved by whole days |
| C160 | the same, with an affine map of the coalescence | thresholds by C14/C46; comparisons, first maxima and merging are unchanged by increasing maps |
| C161 | `calculateOnsets` of CalcOnsets.lean: channel selection, pre-processing, availability checks, gap filling, STA/LTA, combination, stacking; ObsPy functions as parameters | loop result as a function of (station, phase); pre-processing commutes with selecting a station |
| C162 | the same, with linear signal processing | every stage commutes with multiplication; witness with a gap for the violation |
| C163 | the same | checks of the other channels do not see the removed one; a channel with a positive check has rows |
| C164 | the same, with a permuted list of traces | resampling loop as a filterMap up to permutation; checks via the order-free specification of C54; merge order unique without overlaps |
| C165 | `calculateOnsets` of CalcOnsets.lean against a specification from traces (`Spec.Available`, `Spec.passing`, `Spec.onsetAt`) | loop invariant of C161, checks by C54, windows by C33/C34, gap filling by C125 |
| C166 | pads of Pads.lean, windows of StaLta.lean; the taper by its extent (at most a twentieth of the samples at either end) | bounds on rounded sample counts; then locality of the windows (C39) and the blanked stretch (C40) |
| C167 | the root logger (handlers, level, written files), `logger`, `Run.logger`, the name of the log file: Logging.lean | induction over the messages and stages of a process; violations for every second stage, level and early message |
| C168 | `_bilinear_interpolate` with each operation rounded to doubles, origin and spacing through six decimals: BilinearDoubles.lean | exact index of n/0.1 by nearness to an even last bit, remainder computed exactly; error bounds for the weighted means; witnesses |
| C169 | `_compute` as one call from traces to peak values: WaveScan.lean | the calls of C165 are shown to give what `ComputeStep.compute` (C114) starts from; the pads are long enough for the windows of STA/LTA |
| C170 | as C169 | `_compute` uses the traces only through onset functions and availability; C162 and C164; with filled gaps a scan of five samples evaluated for every gain |
| C171 | count, places and indices of nodes along one axis with each operation rounded to doubles: GridDoubles.lean | relative error bounds; distance of a quotient of integers from the next integer; witness |
| C172 | detect from the files of an archive to blocks and rows: WaveDetect.lean | commutation of each step with a shift by days; induction over timesteps |
| C173 | the same with the scan files: WaveDetect.lean, DetectRuns.lean | C169 per window, C22 for the count of samples, C111 for the files |
| C174 | locate from the files of an archive to the events written: WaveLocate.lean | C169 per event, C22 for the count of samples, C19 for the loop |
| C175 | locate from the files of an archive: WaveLocate.lean | commutation of each step with a shift by days; induction over events |
| C176 | read_waveform_data with files as lists of records: Waveforms.lean | exact sample sets through trim, merge, selection and trim; separated records are determined by their samples; permutation by counting |
| C177 | Scan.detect, Scan.locate on two archives: WaveDetect.lean, WaveLocate.lean | C176 per window, C164 and C170 for the order of traces, induction over timesteps and events |
| C178 | Scan.call, detectTrigger, pipeline and Scan.locateOutcome from the files of an archive: WaveDetect.lean, WaveLocate.lean, Pipeline.lean | C169 for each window, C113 for trigger, C115 for the files between, C174 for locate |
| C179 | Scan.read, Scan.outcome, Scan.locateOutcome and the pipeline under a map of the values of the files: WaveDetect.lean, WaveLocate.lean, Pipeline.lean | every step of reading and merging commutes with the map; C162 and C170 for onsets and coalescence; negation with a gap |
| C180 | Scan.read, Scan.readEvent, Scan.outcome and Scan.locateOutcome on two archives: WaveDetect.lean, WaveLocate.lean, CalcOnsets.lean | onsets depend on the matched channels only; reading treats channels independently (C87), so what is read of them agrees up to order, which does not matter (C164, C170); windows without used channels are skipped like those without files |
| C181 | Scan.outcome and Scan.locateOutcome with two lists of stations: WaveDetect.lean, WaveLocate.lean, CalcOnsets.lean, Compute.lean | nothing of a silent station is read, its availability is 0 for every phase and nothing else is kept of it; zeros change neither the sum nor the tables served (induction over stations and phases) |
| C182 | Scan.outcome and Scan.locateOutcome with two lists of stations and phases: WaveDetect.lean, WaveLocate.lean, CalcOnsets.lean, Compute.lean | the records read are a permutation, and so are those of each station in the same order; the available pairs are a permutation; the coalescence is the same product (C173's specification), so the compressed result is the same |
| C183 | Scan.outcome and Scan.locateOutcome on two archives: WaveDetect.lean, WaveLocate.lean, CalcOnsets.lean, Data.lean, Waveforms.lean | what calculate_onsets makes of a station is a function of the channels that pass (C54), which are the same; the other records read are a permutation (C176), whose order does not matter (C164, C170) |
| C184 | TriggerDoubles.lean: _get_threshold, calculate_mad and _trigger_batch with every operation rounded to doubles, against Trigger.lean | rounding keeps the order of decimals with nine digits, so filters, peaks and regions agree; order statistics move no more than the values do, which bounds the error of the thresholds |
| C185 | ScanDoubles.lean: _data2int and the division in read_scanmseed with every operation rounded | error of a product and a quotient is at most 2^-53 of their size, far below half a quantum; rounding is monotone |
| C186 | LocatePeriod.lean: a whole call of locate, from the arguments and the trigger files to the events written | the loop over a concatenation is the concatenation of the loops; each event is handled by itself; induction over the cuts |
| C187 | Magnitude.lean as it is | every stage commutes with the scaling; one lemma for rows whose magnitudes and log amplitudes are larger by k |
| C188 | FindPeaks.lean, Amplitude.lean as they are | maxima, prominence and choice commute with x ↦ kx + b; exchanging peaks and troughs exchanges the two lists of pairs; violated for the frequency when swings tie |
| C189 | Picker.lean as it is | windows depend on otime − starttime only; the loop over stations is a mapM whose steps do not share state |
| C190 | ExportPaths.lean: the paths built by export/to_obspy.py | against the paths of Paths.lean (io/core.py Run, io/*.py writers); violated for names with dots and for other formats |
| C191 | OnsetReport.lean: STALTAOnset.__str__ and the settings it shows | the text is parsed back line by line; the settings shown and the hidden ones give the Cfg of CalcOnsets.lean |
| C192 | SnufflerFile.lean: the lines of snuffler_stations | composed with readStations of Stations.lean; violated for the elevation |
| C193 | WoodAnderson.lean: wa_response over ℂ, with the response that poles and zeros stand for | harmonic motion put into the equation of motion; magnification as a rational function of the squared frequency |
| C194 | MapScale.lean: aspect and scale bar of LUT.plot, on gridExtent of Extent.lean | field arithmetic; straight projections as in C153 |
| C195 | windowAmplitude of FindPeaks.lean on data of known shape, and waResponse of WoodAnderson.lean | a plateau is found around crest and trough and nothing between them; cosine differences give the shape of a harmonic signal |
| C196 | ArchiveReport.lean: Archive.__str__ with and without response_only | lines read back one by one, stations told from what follows by their indent; composed with loadFromPath of Data.lean for the violation |
| C197 | TimeLabel.lean: DateFormatter.__call__ with the format of the figures | digits read back by a separate reader; division arithmetic |

## 4. Recorded assumptions on external behaviour

Each is local to the definitions that cite it; where a theorem needs it, it is a
hypothesis or is stated in the comment of the definition.

* numpy: `argmax` returns the first maximum; `np.round`/`around` rounds half to even;
  `astype(int32)` wraps modulo 2^32; a division by zero gives NaN/inf, modelled `none`.
* Served traveltimes are cast to `int32`; theorems that use the cast assume values
  below 2^31 samples (C50); the C kernel faults on `int` overflow of an index.
* C22 assumes that the sampling rate is positive, that the window is a whole number of
  samples and starts on a sample of the archive, and that the pre-pad is not half-way
  between two samples (never so if the rate divides 1000 or is at most 500 Hz); C43 ranges over rates whose period is a whole number
  of nanoseconds, as obspy stores it.
* C86 takes times as exact; records of a channel are on its sample grid; obspy sorts the
  records of a channel by start and end time before merging, and refuses differing rates.
* obspy: `trim(nearest_sample)` moves to the nearest sample; `merge(method=-1)` of traces
  that follow on concatenates them; `get_gaps` reports a gap iff traces of one id do not
  follow on; `select` keeps order; `UTCDateTime` is integer nanoseconds.
* pandas: `groupby` on a monotone key gives consecutive groups; sums skip NaN; `dropna`,
  boolean masks and `.loc` keep order; `Series.values` may or may not share memory with
  the table (`Cfg.view` of the magnitude model is arbitrary).
* scipy: `curve_fit` is a parameter which may raise; with fewer data than parameters it
  raises TypeError (C59); `Rbf` is a parameter which reproduces its data (C24);
  `find_peaks` is a parameter in C62 and is modelled after scipy's documented algorithm in C83-C84.
* pathlib: `glob` matches `*` within one component (C77).


## 5. Where the code and the properties disagree

For each property below the English claim is false of the code as it stands. The
model follows the code; a theorem (`..._violated...`) proves the violation from a
witness or for all inputs, and the `_partial` theorems prove what does hold.

* **C06** read_scanmseed returns every stored sample in the requested padded window. False of the code when the stored samples of the window have a gap (C06_violated_after_gap: everything after the first gap is dropped, for every such history). Proved for contiguous data on the sample grid, and hence for every window after a detect run (C06_read_after_detect). Witness: `C06_violated_after_gap`.
* **C15** min_event_interval is never less than twice the marginal window. The claim for all histories is false of the code (C15_violated_by_later_window: raising marginal_window is not re-checked). Proved for all histories that never raise the marginal window; setter checks proved exactly. Witness: `C15_violated_by_later_window`.
* **C17** The triggered-event file has the documented columns regardless of what was written before. False of the code (C17_violated): the module-level column list is mutated. C17_columns_after_history is the exact behaviour for every history; the documented columns hold until the option is first used. Witness: `C17_violated`.
* **C20** After trimming, the coalescence map and time series cover the same samples. False of the code for every event: the trimmed map has one time slice fewer than the trimmed table (C20_violated holds for all inputs). Proved: the slices that are kept belong to the rows in order. Witness: `C20_violated`.
* **C22** Coalescence samples and their timestamps line up. False of the code at rates above 500 Hz that do not divide 1000: C22_violated is 502 Hz, where the pre-pad rounded to milliseconds is half-way between two samples and one sample too many is migrated. The partial theorems hold for every rate and window with no such tie; C22_usual_rates shows there is none if the rate divides 1000 or is at most 500 Hz. The start (trigger) time is taken on the sample grid of the archive and timestep as a whole number of samples. Witness: `C22_violated`.
* **C35** The C and Python STA/LTA backends agree. Violated by the code in two corners, proved as witnesses (silent long-term window; equal windows in the centred position). The _partial theorems give the exact guard under which the backends agree. Witness: `C35_classic_silence_violated`, `C35_centred_equal_windows_violated`.
* **C42** trim2sample returns a whole number of samples not shorter than the input. False of the code for rates that do not divide 1000 (C42_violated, 30 Hz). Proved for rates dividing 1000; for all rates the loss is below a millisecond. Witness: `C42_violated`.
* **C45** Upsampling preserves the original samples and only interpolates between them. Samples, interpolation, length and window are proved in full; the pads only for whole-number data, because the fill is truncated to an integer (C45_pad_violated). Witness: `C45_pad_violated`.
* **C49** Decimated lookup tables keep the traveltimes of the nodes they claim to represent. Shapes proved. Coordinates are false of the code when two or more nodes are left over on an axis (C49_violated); C49_coordinate_offset is the exact error and C49_coordinates_partial the case where it is zero. Witness: `C49_violated`.
* **C51** Adding lookup tables never changes the tables already present. False of the code for a station in both tables (C51_violated: the second wins, C51_second_wins) and for the station table (C51_station_table_kept). The rest is proved. Witness: `C51_violated`.
* **C52** A lookup table loaded from file is the one that was saved. Proved for read_lut and load; false of the code for LUT(lut_file=...), which always empties the station information (C52_violated, for every file). Pickling is taken to be exact. Witness: `C52_violated`.
* **C53** Bilinear traveltime interpolation is exact at nodes and between its corners elsewhere. Inside-the-table and between-neighbours proved for the table requested for each station. Exactness at nodes is false of the code unless the top of the table is a whole number of spacings (C53_violated; C53_node_value is the exact value). Six-decimal formatting of the table origin is not modelled. Witness: `C53_violated`.
* **C56** A station file with a missing column is rejected with the documented error. False of the code (C56_violated): the check is `("Latitude" or ...) in header`, so only a missing Latitude is reported; a missing Longitude passes and a missing Elevation or Name raises KeyError. C56_latitude_partial is the exact condition of the error. Witness: `C56_violated`.
* **C59** A reported pick lies strictly inside its pick window, and picking never aborts. False of the code for a window that starts at the first sample of the onset function (C59_violated: ValueError). Picks reported are always strictly inside (C59_strictly_inside); picking completes when the windows start later (C59_no_abort_partial, C59_picking_completes_partial), which C59_locate_windows shows for events of locate with fraction_tt <= 1. Witness: `C59_violated`.
* **C61** Amplitude windows are ordered, disjoint and contain their picks. False of the code (C61_violated): with close autopicks the P window can end before the P pick. C61_windows_partial, C61_error_iff and C61_modelled_contained give what holds. Witness: `C61_violated`.
* **C63** The network magnitude lies between the station magnitudes. The weighted error is false of the code (C63_violated): deviations are multiplied by the weight before squaring. Everything else is proved; C63_shift requires, with weights, that no error is 0 (infinite weight). Witness: `C63_violated`.
* **C64** Only observations passing every configured filter contribute, and the magnitude is defined if one does. False of the code: location code equal to a listed station (C64_station_violated); magnitude NaN although observations are used (C64_violated_noise_filter, C64_violated_distance, C64_violated_weights). C64_used is exact; C64_station_partial and C64_defined_partial state what holds. Witness: `C64_station_violated`, `C64_violated_noise_filter`, `C64_violated_distance`, `C64_violated_weights`.
* **C65** The r-squared statistic is at most one, equals one only for a perfect fit, and honours its noise selection. False of the code: r2 = 1 when the network magnitude is NaN (C65_violated_nan); the result of the noise selection is discarded (C65_violated_selection). Pandas sums skip NaN. Witness: `C65_violated_nan`, `C65_violated_selection`.
* **C66** The padding read for amplitudes covers every measurement window. False of the code for autopicks outside the modelled windows (C66_violated). C66_covered_partial and C66_clear_of_taper_partial hold for windows from modelled arrivals; C66_inside_iff is the exact condition. Witness: `C66_violated`.
* **C68** Old-style availability files convert without loss. False of the code for station names with an underscore (C68_violated_underscore). Proved for names without. Witness: `C68_violated_underscore`.
* **C69** Each exported station carries its own network code. False of the code for stations of two networks (C69_violated): the code of the first row is used for all (C69_first_code). Witness: `C69_violated`.
* **C71** After a trigger run each day's file holds that run's events. False of the code for days without candidates (C71_violated_stale_file): nothing is written, so an earlier file survives. Proved for every day with a candidate. Witness: `C71_violated_stale_file`.
* **C72** Triggering different periods in separate calls keeps the events of both. False of the code for two parts of one day (C72_violated_same_day): the file is replaced. Proved for disjoint sets of days. Witness: `C72_violated_same_day`.
* **C73** Scan output is also kept when the start time is off the sample grid. False of the code twice over: C73_violated_off_grid_start is a run that loses a sample, C73_violated_last_sample is a run that fails as its first sample is the last of a day. The on-grid case is C03; C73_small_offset_partial covers every off-grid run with an offset below half a sample that does not start on the last sample of a day. Witness: `C73_violated_last_sample`, `C73_violated_off_grid_start`.
* **C75** Pick windows that do not overlap are left alone. False of the code (C75_violated): windows are cut at the midpoint of the arrivals even when they do not overlap. Proved for windows that keep to their side of the midpoints. Witness: `C75_violated`.
* **C77** Only files of the selected stations and of days of the window are read from the archive. False of the code in three of the seven formats (C77_violated: A1 also reads files of A10 or XA1). Proved exactly for the four formats that delimit the station; for all formats own files are found and files of another day never read. Witness: `C77_violated`.
* **C78** Snuffler markers are at the time of the pick. False of the code for sub-second parts below 0.1 s (C78_violated): microseconds are written without leading zeros. C78_marker_time_iff is the exact condition. Witness: `C78_violated`, `C78_violated_channels`.
* **C80** SAC files for MFAST carry the station elevation in metres. False of the code (C80_violated): what is written is minus the elevation in kilometres. Witness: `C80_violated`.
* **C81** Documented attenuation functions are accepted. False of the code for the documented names Greenfield2018 and langston1998 (C81_violated). Witness: `C81_violated`.
* **C82** Attenuation grows with distance. False of the code for Danakil2017 beyond about 2000 km (C82_violated). Witness: `C82_violated`.
* **C83** An amplitude measurement fails only for want of a peak or a trough. Proved in full for the default multiplier 0, and for any multiplier if no two peaks and no two troughs kept are level. False otherwise: level peaks kept without the trough between them give "Consecutive peaks/troughs!" (C83_violated). Witness: `C83_violated`.
* **C84** The amplitude table has three rows per station, measured with its own traveltimes. Proved for station tables labelled 0, 1, 2, ... False for other labels, because the label of a row is used as a position in the traveltimes: other traveltimes (C84_violated_sorted), an IndexError (C84_violated_filtered), lost rows (C84_violated_repeated). Corrected data, average amplitude and filter gain are parameters. Witness: `C84_violated_sorted`, `C84_violated_filtered`, `C84_violated_repeated`.
* **C85** A filter without its frequencies is refused. False for the bandpass filter, whose frequencies are read with dict.get, which does not raise (C85_violated). Witness: `C85_violated`.
* **C88** Reading waveforms raises the documented exceptions. False: DataGapException is raised where DataAvailabilityException is documented (C88_violated). Proved: ArchiveEmptyException exactly if there are no files; never an empty result; a gap if the files hold no records. Witness: `C88_violated`.
* **C90** Every located event is written. False of the code (C90_violated): on a grid in metres with depth spacing of 100 m or more the depths and uncertainties are rounded to integers and a value that is not finite raises in astype(int). C90_written_iff_partial is the exact condition. Witness: `C90_violated`.
* **C91** Output files of different runs, events, days and kinds never overwrite one another. Proved for run names, subnames and event identifiers without dots (trigger's identifiers are such: C91_trigger_ids). False otherwise: the runs a.b and a_b share their files (C91_violated_names), and identifiers ev.1 and ev.2 of a trigger file share theirs, because with_suffix replaces what follows the last dot (C91_violated_uids). Names are single path components. Witness: `C91_violated_names`, `C91_violated_uids`.
* **C93** The corrected cut waveforms hold all data of the event in the units and window asked for. Proved if no magnitudes are calculated or the waveforms are cut (C93_files_partial). Otherwise the code writes the cached waveforms of the amplitude stage (C93_with_magnitudes): displacement although velocity was asked for, and only the traces used for amplitudes (C93_violated). Trimming is assumed idempotent; response removal and Wood-Anderson simulation are parameters. Witness: `C93_violated`.
* **C94** The Gaussian fit recovers a Gaussian: location and one-sigma uncertainties. The location is proved exact (C94_location). The uncertainties reported are half of the principal standard deviations, in the order of the eigenvalue routine and not of the axes (C94_uncertainty_partial, C94_uncertainty_principal_partial; violation C94_violated). On a grid with one node on an axis the fit raises (C94_flat_grid). Floats are reals; pinv is assumed to satisfy the Moore-Penrose conditions, eig to list the eigenvalues. Witness: `C94_violated`.
* **C95** Traveltimes at a point are interpolated, and modelled arrivals are those of the hypocentre. traveltime_to is proved exact at nodes, bounded by the surrounding nodes, and exact for linear tables. The callers round the hypocentre to the nearest node before asking (C95_violated); proved instead: the value used is that of a node within half a node along each axis, exact at nodes, and in a homogeneous medium wrong by at most half a cell diagonal over the velocity. Floats are reals. Witness: `C95_violated`.
* **C99** Computing tables with NonLinLoc does not touch other files. Proved: files outside model are left alone whatever happens, except control.in and the time grids of the phases and stations of the run; all working files are gone after success; nothing is lost with retain_nll_grids. Violated for the directory model, which is removed with everything in it (C99_violated). Which files the programs write is an assumption (NamesFiles). Witness: `C99_violated`.
* **C100** locate works on exactly the events asked for. Proved: a period, or a file alone, selects exactly the events described; no arguments and reversed periods are refused. Violated (C100_violated): a lone start time never gives the documented RuntimeError, and a period given with a file is ignored. UTCDateTime(None) is a parameter. Times are rationals. Witness: `C100_violated`.
* **C101** A scan works with its own padding and rate. Proved for all histories before the construction and all later ones that leave the onset object alone. Violated (C101_violated): a second scan on the same onset object changes the padding of the first, after which migration reads outside its arrays; changing the onset's rate leaves a stale scan rate. Witness: `C101_violated`.
* **C102** Settings given to a scan take effect. Proved for timestep/time_step and threads/n_cores. Violated (C102_violated): sampling_rate raises AttributeError; assigning pre_pad has no effect; assigning post_pad does not set the value. Witness: `C102_violated`.
* **C103** Tables read from NonLinLoc hold the stored traveltimes. Proved: the values, grid, stations and phases, and the refusals of missing and short files and of missing projections. Violated (C103_violated): a later file with another grid is accepted. Decoding of four bytes to a float is a parameter; coordinate transformation is a parameter with the round trip assumed. Witness: `C103_violated`.
* **C104** The projection of a NonLinLoc grid is that of its header. Proved for SIMPLE and LAMBERT. Violated (C104_violated): TRANS_MERC headers give an origin at (0, 0), and rotations are ignored. PROJ's meaning of parameter names is part of the specification. Witness: `C104_violated`.
* **C105** Exporting a run gives exactly its located events. Proved for all histories and crash points in which magnitudes were calculated in all calls, from the phase named, or in none. Violated (C105_violated): no event file at all raises UnboundLocalError; magnitudes left from an earlier run, or another phase, raise KeyError; missing magnitudes raise ValueError if ObsPy refuses NaN (a parameter). Writes of single files are atomic in the model. Witness: `C105_violated`.
* **C106** The parts of an exported event belong together. Proved if the last call to locate the event completed its files and calculated a magnitude or none was left from before. Violated (C106_violated) by a run stopped between the picks and the event file. Witness: `C106_violated`.
* **C107** Exported locations and uncertainties do not depend on the units of the files. Proved for units, depths and latitudes. Violated (C107_violated): uncertainties of longitude lack the cosine of the latitude, and the axes of the ellipsoid are always north, east, vertical. Witness: `C107_violated`.
* **C110** Triggered events of neighbouring days are also separated. Proved for static thresholds and a pad of at least the minimum event interval without smoothing (C110_static_partial); with smoothing, for a record without gaps and a pad longer by the reach of the filter and the longest run above the threshold (C110_smoothed_partial); for thresholds that follow the data, with or without smoothing, if midnights, start and pad are whole numbers of threshold windows (C110_dynamic_partial, C110_dynamic_raw_partial). Violated for threshold windows that the days are not a multiple of (C110_violated) and for pads shorter than the minimum event interval (C110_violated_small_pad). Witness: `C110_violated`, `C110_violated_small_pad`.
* **C111** A period may be scanned in several calls. Proved for periods cut at midnights, a whole number of timesteps apart, in any order. For all other histories it is proved what each day's files hold: those of the last call that touched the day, alone (C111_last_call_wins, C111_last_availability_wins). Violated for other cuts (C111_violated): the later call replaces the day's files. A killed call leaves scan data without availability (C111_violated_killed). Witness: `C111_violated`, `C111_violated_killed`.
* **C112** An isolated burst of coalescence gives exactly one event. Proved for static thresholds, no smoothing, pads at least as long as the burst, and sampling times that include the midnights (C112_isolated_reported_once_partial); for any threshold method, with or without smoothing, on a record without gaps with midnights, start and pad whole numbers of threshold windows, and a longer pad (C112_dynamic_partial). Violated if midnight is not a sampling time: a burst just before it is not reported by either day (C112_violated_off_grid); and for shorter pads: reported twice (C112_violated_small_pad). Witness: `C112_violated_off_grid`, `C112_violated_small_pad`.
* **C113** Detect followed by trigger reports every clear burst once. Proved for one complete detect call into a new run, times and pad on the sampling grid: for a static threshold without smoothing (C113_detect_then_trigger_partial), and for any threshold method with or without smoothing if midnights, both starts and the pad are whole numbers of threshold windows (C113_dynamic_partial). Violated when the run also holds an incomplete earlier day within reach of the pad: everything after the gap is ignored without an error (C113_violated_after_gap). Witness: `C113_violated_after_gap`.
* **C115** Detect, trigger and locate: every clear burst is located once. Violated when triggering on normalised coalescence (the default): the event of a clear burst is silently dropped by locate if the coalescence before normalisation is larger elsewhere in its window (C115_violated_normalised). Proved when the coalescence before normalisation is largest within two marginal windows at a sample less than a marginal window from the trigger time: for a static threshold without smoothing (C115_burst_located_once_partial) and for any threshold method with or without smoothing on the grid of threshold windows (C115_dynamic_partial); for data without gaps, no earlier triggered-events files for these days (C71), and locate recomputing the coalescence detect computed (C114). Witness: `C115_violated_normalised`.
* **C116** A source at a grid node is found there. Proved with the restrictions of C114 (whole samples per timestep, start on the sample grid, no pre-pad halfway between two samples). Traveltimes are rounded to samples, so nodes whose traveltimes differ by less than a sample cannot be told apart and the first in grid order is reported (C116_violated_rounding). Witness: `C116_violated_rounding`.
* **C118** A channel with all its samples is used. Violated by the defaults: with the default onset windows at 50 Hz and a timestep of 120 s, and a largest traveltime up to 22 s, every complete channel is refused for every start and every timestep (C118_violated); likewise for locate with the default marginal window and a largest traveltime of 3 to 5 s (C118_violated_locate). The number of samples asked for is a product of two doubles plus one and is compared without rounding. Proved: complete channels are used if the rate is a sum of two powers of two (100 Hz is not; 40, 20, 10, 160 are) or the length is a double; incomplete channels are always refused. C118_violated_run: with the defaults the whole detect run then gives zeros and availability 0, without an error. Witness: `C118_violated`, `C118_violated_run`, `C118_violated_locate`.
* **C119** Pads are whole numbers of samples in double precision. Violated: trim2sample(4.06, 50) is 4.059; for windows of 0.1 and 0.75 s and a largest traveltime of 23 to 38 s no channel is used by locate. Proved: less than the pad or one sample more by at most a millisecond; exact for multiples of an eighth of a second. Witness: `C119_violated`.
* **C120** Locate has one timestamp per coalescence sample. Violated: a marginal window of 1.15 s at 50 Hz gives 230 timestamps for 231 samples, although the data are used; the DataFrame raises ValueError. Proved: the number is that of the samples or one less, and equal for rates that are sums of two powers of two and for windows that are doubles. Witness: `C120_violated`.
* **C121** The timesteps of detect follow one another without gap in double precision. Steps: proved for timesteps of whole nanoseconds up to 13 days after the start and whole seconds up to 136 years. Number of steps: proved for whole seconds; violated for fractions (2.1 s in steps of 0.3 s gives 8). Witness: `C121_violated`.
* **C123** Smoothing of the location map is normalised and does not move a source. Range, normalisation and scale proved for every map that is not negative and not zero everywhere (C123_range, C123_scale). Single source stays the peak and mirroring: if each axis has an odd number of nodes, or the source is not at the upper end of an even axis (C123_peak_partial, C123_mirror_partial). Violated otherwise (C123_violated): on an axis with an even number of nodes, at least 4, the kernel has no centre node, and a source at the upper end is moved one node inwards, for any width. The FFT convolution of scipy is taken as the exact convolution. Witness: `C123_violated`.
* **C124** In double precision the onset is the ratio of the means, also after a glitch and in a gap. Proved: an error bound for every signal, window and sample whose long-term sum is at least 4*N*(n+2)*X/2^52 (N samples of the signal, n of the window, X largest value): C124_classic_partial, C124_centred_partial; no accumulation at all for whole numbers (C124_counts). Violated where the long-term sum is small compared to the largest value before: after one large glitch all later classic onsets of the timestep are NaN and centred onsets are 1 whatever arrives (C124_violated_classic, C124_violated_centred, for all windows); in a gap filled with tiny values the onset is the ratio of two rounding errors, 26 or 6 in the cases shown, for the whole gap (C124_violated_gap_classic, C124_violated_gap_centred; the documentation says gaps give an onset of about zero, exact arithmetic gives 1). No contraction of multiplications and additions, overflow or subnormal numbers in the model. Witness: `C124_violated_classic`, `C124_violated_centred`, `C124_violated_gap_classic`, `C124_violated_gap_centred`.
* **C125** Gappy data are used if allow_gaps is set, and a gap gives no signal. Violated: while full_timespan is left at its default (True), allow_gaps has no effect at all, for any data: channels with two or more traces are refused (C125_violated). Violated: where both windows lie in a gap the onset is 1, not about 0, for any fill value (C125_gap_onset_violated; in double precision it can be larger, see C124). Proved: with both options set a channel is used exactly if no trace is flat, none overlap and the rate is right (C125_used_partial); filling and padding put every sample at its own time (C125_filled; traces on the samples of the window, rates below 100 kHz); the classic onset after a gap is at most nlta/nsta, the centred one is the mean energy over the squared fill value (C125_return_of_data). The taper weights are a parameter. Witness: `C125_violated`, `C125_gap_onset_violated`.
* **C126** A channel at an unusable rate does not stop the scan, and the filter asked for is applied. Exact outcome for every stream and setting: C126_outcome_partial (rates up to the hypotheses of C44; corner frequencies positive and in order). Violated: a channel sampled at or below twice the low corner raises a ValueError in ObsPy, which detect does not catch, and the run ends (C126_violated, any other data, any timestep). Violated: for a high corner in the last millionth below Nyquist a high-pass filter is applied (C126_violated_edge). ObsPy's and SciPy's checks of corner frequencies are modelled from their documented behaviour. Witness: `C126_violated`, `C126_violated_edge`.
* **C127** Amplitudes are measured with the filter asked for, and its gain is removed. C127_filter_partial: filter applied = filter whose gain is removed = the one documented, whenever no exception is raised. C127_violated: a ValueError (nothing catches it) exactly if the rate is at most twice the frequency of the high-pass filter or the low corner. The frequency response itself is not modelled. Witness: `C127_violated`.
* **C129** Converting an old lookup table keeps its contents. Old tables: C129_old_partial (what is served is unchanged for every sampling rate and availability). New tables: C129_new_partial (nothing but phases and fraction changes). Violated for both: the phases become P and S and fraction_tt 0.1 whatever they were (C129_violated), and a table without S traveltimes for a station can then not be served as a whole (C129_violated_serve). The pickle file itself is not modelled. Witness: `C129_violated`, `C129_violated_serve`.
* **C130** The settings of an onset object are those it was given, and its own. C130_constructed_partial and C130_others_partial: holds between objects that do not hold the same dictionary. Violated: objects constructed with the same dictionary share what is set under old names (C130_violated), the constructor changes the user's dictionary and earlier objects (C130_violated_constructor), and onset_centred read back is a text that is always true (C130_violated_read). Witness: `C130_violated`, `C130_violated_constructor`, `C130_violated_read`.
* **C131** The SAC files for MFAST are complete, and their arrivals are at the times of the picks. C131_files_partial: exact list of files and contents if each station with picks has channels ending in Z, N, E that begin together. Violated: channels named 1 and 2, which the default settings accept for S, or a missing component raise IndexError and end the export (C131_violated); so does a station with picks and no data at all (C131_violated_no_data); if the traces of a station do not begin together the arrivals are off by the difference (C131_violated_start). SAC reference times are idealised as the start of the trace (SAC keeps whole milliseconds and an offset). Witness: `C131_violated`, `C131_violated_no_data`, `C131_violated_start`.
* **C133** The settings given to a picker are those used for every event. Proved if the method is not changed on the object (C133_mad_partial, C133_percentile_partial, C133_refused_partial). Violated: after changing threshold_method on the object every event ends with AttributeError (C133_violated); an unknown method is taken and ends with UnboundLocalError (C133_violated_unknown); pick_threshold=0 is ignored in silence (C133_violated_zero). Witness: `C133_violated`, `C133_violated_unknown`, `C133_violated_zero`.
* **C134** The grid covers the region asked for, and its reported extent covers the grid. Proved for projections that act on each axis alone and are increasing (C134_extent_partial, C134_covered_partial, C134_max_partial); C134_round_trip and C134_stations for any. Violated for a projection with converging meridians: a corner of the region in no cell (C134_violated_region), a node outside the reported extent (C134_violated_extent). Witness: `C134_violated_region`, `C134_violated_extent`.
* **C135** The summary plots show the components each phase was computed from. Proved for comma lists with as many letters as numbers or one kind only (C135_components_shown_partial, C135_each_once_partial). Violated: with more letters than numbers the rest are on no panel (C135_violated_unequal); of a list without commas every second component is lost (C135_violated_no_commas); channel maps for the only phase in use raise KeyError (C135_violated_one_phase). Witness: `C135_violated_unequal`, `C135_violated_no_commas`, `C135_violated_one_phase`.
* **C138** A higher detection threshold only leaves events out. C138_largest_partial: the sample with the largest value stays an event of its batch. C138_within_partial: an event found with the higher threshold lies in the window of an event at least as large found with the lower one (search windows of the raw coalescence, minimum event interval at least twice the marginal window, which the setters enforce). Violated: a higher threshold can give an event more, because one run above the threshold splits into two (C138_violated_added), and can lose an event that is well above it, because the split-off part of an earlier run merges with it (C138_violated_lost). Witness: `C138_violated_added`, `C138_violated_lost`.
* **C144** A large event does not hide itself from a threshold that follows the data. C144_burst_partial (less than half of each window of the record, which for the last one can be much less than half the window length), C144_one_event_partial and C144_one_event_mad_partial (also: midnights, starts and pad whole numbers of windows), with the bounds C144_mad, C144_mad_spread and C144_median. The full claim is false for a burst in the last, shorter window: C144_violated_last_window. Witness: `C144_violated_last_window`.
* **C145** No event is triggered where there are no data. C145_static_partial (static threshold, smoothing off), C145_dynamic_partial (other methods if every window is mostly positive). The full claim is false: a gap is stored as zeros; where a threshold window is mostly zero the MAD and median-ratio thresholds are zero (C145_violated_window, any multiplier), zeros reach them, and an event with coalescence zero at (0, 0, 0) is reported in the gap (C145_violated). Witness: `C145_violated_window`, `C145_violated`.
* **C146** The trigger summary shows the stations that were available. C146_numbers_partial (at most two phases, neither the start of the other's name), C146_stations. The full claim is false: with more than two phases the number of phases is taken after the list has been replaced by ['*'], so the panel shows the number of station-phase pairs (C146_violated); if one phase name starts with the other (P, Pn) drawing fails (C146_violated_prefix). Witness: `C146_violated`, `C146_violated_prefix`.
* **C147** The event summary shows the location and its uncertainty. C147_km_partial (grids in km), C147_metre_depth; for grids in metres the uncertainty is converted to km and then rounded to the decimals meant for metres: correct only to five node spacings (C147_metre_uncertainty_partial), and shown as 0 km whenever it is below 500 m and the spacing at least 100 m (C147_violated). Witness: `C147_violated`.
* **C149** The amplitude figure agrees with the magnitudes. C149_point and C149_figure are complete; C149_visible_partial: used observations are inside the axes without weights, or for noise filters of at least 0.1. With weights and a lower noise filter a used observation (of weight 0, its magnitude not a number) can be below the axes (C149_violated_visible). Witness: `C149_violated_visible`.
* **C150** The amplitude figure names each station once. C150_labels_partial, C150_once_partial: stations whose observations are together and of which there are at least two. The full claim is false: an observation on its own gets no label (C150_violated_single), and a station listed last with one used observation is labelled twice if it has rejected ones (C150_violated_twice). Witness: `C150_violated_single`, `C150_violated_twice`.
* **C151** A magnitude that cannot be determined does not stop the run. C151_raises_iff: with the figure on, calc_magnitude raises exactly if the network magnitude was computed and is NaN, because `mag is not np.nan` compares objects and the NaN reaches set_ylim. C151_ends_run: then neither this event nor any later one is written; C151_violated: a used observation at distance 0, with the default noise filter. C151_fine_partial: no failure for noise filters of at least 1, positive distances, noise not negative (positive with weights). Witness: `C151_violated`.
* **C152** The figure of a station's picks shows each phase with its own window and picks, and making it does not stop the run. C152_visible is complete. C152_panels_partial: two phases, or one called P or S; false for three phases (C152_violated_three) and for a single phase of another name (C152_violated_name). C152_drawn_partial and C152_locate_partial: the figure is made if fraction_tt times the traveltime is at most twice the longest long-term window and the first pad is at least 11 samples. The full claim is false: a window that reaches the end of the data is cut to the number of samples, which is not an index (C152_fails); with default settings this happens at a traveltime of 150 s, at any rate above 1 Hz (C152_violated), and the event and all after it are not written (C152_ends_run, C152_fine). Witness: `C152_violated`, `C152_violated_three`, `C152_violated_name`.
* **C153** The map and sections of the event summary cut the coalescence at its maximum and show each node where it is. C153_planes is complete. C153_cells_partial and C153_ellipses_partial: projections that are a straight line on every axis. False for others: a cell away from its node (C153_violated_cells), an ellipse without width although the uncertainty is positive, where meridians converge (C153_violated_ellipse). Witness: `C153_violated_ellipse`, `C153_violated_cells`.
* **C154** Making event summaries does not change which events are located. C154_made_partial: the figure is made if the table has all stations shown with all phases, names have no underscore, the rate is above 10 Hz and the origin time is in the data. The full claim is false: a station of the archive that is not in the table (C154_violated_station), an underscore in the name of a station that is not used (C154_violated_name), a station at the event at 5 Hz (C154_violated_rate). C154_ends_run: then the event is written and no event after it; C154_fine: otherwise nothing changes. Witness: `C154_violated_station`, `C154_violated_name`, `C154_violated_rate`.
* **C155** A scan on a decimated lookup table samples the full scan. C155_decimated_scan_partial: values and the node that stands for the peak, for all factors (missing: a pre-pad halfway between two samples, as in C114). C155_location: the coordinates are off by the nodes skipped on each axis, zero exactly when at most one is left over; then C155_same_peak_partial. With more left over the location is wrong: C155_violated (three nodes decimated by three). C155_longest_traveltime is complete. Witness: `C155_violated`.
* **C157** The printed lookup table describes its grid. C157_printed_table_partial: depths, unit, number of nodes, spacing, and that the corners shown are the first and the last. The latitude and longitude are exchanged: C157_violated, for every table whose corner has a latitude and longitude that print differently. Witness: `C157_violated`.
* **C158** The locate report determines picks, amplitudes and magnitudes. C158_picker_report and C158_amplitude_report are complete for objects as their constructors make them. C158_magnitude_report_partial: all settings but the corrections and r2_only_used. C158_violated_corrections: changing a station correction leaves the report unchanged and changes every magnitude of the trace by the difference. Witness: `C158_violated_corrections`.
* **C162** Onset functions do not depend on the units of the waveforms. Proved with full_timespan on and allow_gaps off. Violated with gap filling: the fill value is a constant in the units of the data, and the centred onset at the return of data is 9 g^2/fill^2 in the witness (C162_violated). Witness: `C162_violated`.
* **C167** The log file of a stage holds its messages. Violated: logging.basicConfig does nothing once the root logger has handlers, so a second stage of a process (as in a notebook) gets an empty log file, its messages go to the log of the first, and a level of more detail is ignored; the same happens if anything is logged before the first stage. Proved for the first stage of a process, the screen at the level of the first stage, and the file names. Witness: `C167_violated_second_stage`, `C167_violated_level`, `C167_violated_early`.
* **C168** Traveltimes from NonLinLoc are those of the node's own place, in double precision. Violated: the index is floor((z - z0)/dz) but the fraction is remainder(z, dz)/dz, and in doubles the first is exact and the second nearly one for every whole number of kilometres at the default spacing of 0.1 km, so these nodes get the traveltime 100 m deeper; and where the top of the grid is read back from the six decimals of the header as a larger number (e.g. a grid in metres with top at -1200.4 m), the top nodes mix in the deepest row of the table. Proved: exact for spacings 1, 1/2, ..., 1/64 km and multiples of them; close to the interpolation for nodes away from the lines of the table (the origin being close to a line). Assumed: NonLinLoc prints origins and spacings with six decimals. The violation for origins that are no multiple of the spacing is C53. Witness: `C168_violated_default_spacing`, `C168_violated_top`.
* **C170** Gain, polarity, units and order of the files do not change what a scan finds. Gain: proved with full_timespan and without allow_gaps for linear signal processing; with gaps filled by a constant it fails: the largest coalescence of the scan is then proportional to the square of the gain (C170_violated). Order: proved without these restrictions. Witness: `C170_violated`.
* **C171** The grid covers the box asked for, in double precision. Violated in the number of nodes: from 0 to 6.9 with spacing 0.3 there are 25 nodes, not 24, the last a whole spacing beyond the corner. Proved: every node is found again from its coordinates, which are right to a sixteenth of a spacing, for up to 2^46 nodes and a corner within 2^46 spacings of the origin; the last node is never short of the corner nor more than a spacing beyond it, up to relative rounding 2^-50; number and places are exact for corners and spacing that are whole multiples of a common power of two. The corners are those in grid coordinates, after projection. Witness: `C171_violated`.
* **C179** Gain and polarity of the archived channels do not matter. Violated with gaps filled (C179_violated): where data return after a gap, the value that detect stores is proportional to the square of the gain, because the constant the gap is filled with is not scaled. Proved without gap filling (allow_gaps False, full_timespan True), in real arithmetic, for signal processing of ObsPy that is linear and keeps channel names. Witness: `C179_violated`.
* **C180** Archived channels that no phase is computed from do not matter. C180_violated shows that the condition on the corner frequencies is needed: with a corner frequency above the Nyquist frequency, detect runs to its end on an archive without files, while a channel that no phase uses makes it stop with an exception. Asked of the data read for used channels: samples, and rates up to 500 kHz. Witness: `C180_violated`.
* **C181** A station without any data in the archive changes nothing. C181_underscore and C181_violated show that the condition on the names is needed: serve_traveltimes splits the key before it looks whether the station is available. Witness: `C181_violated`.
* **C184** Triggering in double precision decides as exact arithmetic. Proved for static thresholds (C184_static, C184_static_batch), for whatever numbers a file can hold (C184_stored_numbers, C184_read_rounds). For MAD and median-ratio thresholds proved when no value is within 1e-7 (1 + multiplier) of its threshold and the window length and its number of samples are doubles (C184_dynamic_partial); otherwise false: 0.3 is below 0.1 * 3 in doubles (C184_violated_equal), and int(0.29 * 100) is 28 (C184_violated_window). Smoothing is not modelled in doubles. Witness: `C184_violated_equal`, `C184_violated_window`.
* **C185** Storing the scan in double precision. Half a quantum cannot be kept to the letter: the double 0.000005 is stored as 0 (C185_violated_half). Proved: half a quantum plus 1e-10 for the coalescence and 1e-11 for X and Y (C185_coalescence, C185_coordinates), order (C185_order), storing again (C185_stored_again). Witness: `C185_violated_half`.
* **C188** Gain, clock and polarity of the data in an amplitude measurement. Proved for gain and clock (C188_gain_and_clock) and, for the polarity, for the amplitude and the errors (C188_polarity). Frequency and time: proved for equal numbers of peaks and troughs (C188_polarity) or without level swings (C188_polarity_partial); violated when the first and the last swing are equally large (C188_violated_polarity): the pairs that begin with a peak are preferred if there are more peaks, those that end with one if there are more troughs. Witness: `C188_violated_polarity`.
* **C190** The export reads the files that locate wrote. C190_same_files_partial, C190_own_events for names without dots and MiniSEED; violated otherwise: C190_violated_dots (Run replaces dots in the names, the exporter does not), C190_violated_formats (the extension .m is fixed in the exporter). Witness: `C190_violated_dots`, `C190_violated_formats`.
* **C191** The onset report determines the onset functions. C191_report_determines, C191_states_settings, C191_report_determines_onsets_partial; violated: C191_violated (min_onset_value is not in the report, nor are the signal transform, the channel maps and counts and the data checks). Witness: `C191_violated`.
* **C192** The station file for snuffler gives the place of each station. C192_lines_partial; violated: C192_violated (read_stations changes the sign of the elevation, snuffler_stations does not change it back). Witness: `C192_violated`.
* **C194** The maps have the proportions of the grid and a true scale bar. C194_frame (all projections), C194_distances_partial (straight projections); violated for curved ones, as the axes are longitude and latitude: C194_violated. The printing of the label to three digits is not modelled. Witness: `C194_violated`.
* **C196** The report of an archive determines what is read from it. C196_response_determined, C196_report_determines_partial; violated: C196_violated (read_all_stations is not in the report; nor is interpolate, nor an upsampling factor of 0). Witness: `C196_violated`.

Properties marked partial for another reason than a violation:

* **C36** The recursive STA/LTA reproduces the centred STA/LTA. The documented claim is false of the code; a witness is proved, and the exact formula of the recursive onset.
* **C114** What the scan reports for an instant. Proved for a whole number of samples per timestep, runs starting on the sample grid and pre-pads not halfway between two samples (all usual rates, C22_usual_rates). Independence of the timestep assumes that the onset functions are the same functions of absolute time on the samples used (from the end of the pre-pad to the longest traveltime into the post-pad; the incomplete windows at the ends may differ) and the same pairs are available in both windows; filters and tapers make this approximate. The projection to longitude and latitude is left out.
* **C117** An earthquake gives exactly one event. C117_earthquake_gives_one_event_partial (static threshold), C117_median_ratio_partial (a multiple of the median of each window) and C117_mad_partial (the MAD of each window). They compose C113, C114, C115, C116 and C144 with their restrictions: the same pairs are available in the timesteps around the earthquake and when it is located (elsewhere stations may come and go and timesteps may have no data, as in the case shown), smoothing off, times on samples, no pre-pad halfway between two samples, onset functions that are the same functions of absolute time in all windows on the samples used (not at the ends of a window), and doubles that are a monotone function of the real values with a bounded error. For both of the latter the background is between two bounds, so all timesteps have data; the earthquake takes less than half of a threshold window, and midnights, starts, pad and the length of the scan are whole numbers of windows. For the MAD the background is also spread out: whichever level is chosen, more than half of the samples of each window are at least d away from it, and d is large enough for the multiplier.
* **C142** An earthquake in noise gives exactly one event, which explains its arrivals. C142_noisy_earthquake_partial (static threshold), C142_median_ratio_partial and C142_mad_partial. Missing, as for C117: the same stations and phases are available around the earthquake and when it is located; smoothing is off; times are on samples; rounding by one monotone function; with the MAD, a spread out background as for C117. That the coalescence forms one burst above the threshold is a hypothesis. The first case shown has arbitrary noise between 0 and 1.
* **C173** The scan files hold the peaks of the coalescence of the archived waveforms. Proved for a sampling rate of whole samples per second, a timestep of whole samples of at most a day, a start on the sample grid, data on the samples of the window when gaps are filled, and data whose long-term windows are not silent. Arithmetic of the onsets and stack is exact; the pre-pad is not half way between samples. Windows whose data cannot be pre-processed are excluded (they raise).
* **C174** Located events and their origin times follow from the archived waveforms. Proved for a whole number of samples per second and per marginal window, trigger times on the sample grid, data on the samples of the window when gaps are filled, data whose long-term windows are not silent, and later stages (location, picking, magnitudes, output) that raise nothing; events whose data cannot be pre-processed are excluded (they raise). Arithmetic of onsets and stack is exact, rounded once when the values are stored.
* **C178** From the archived waveforms to one located event. Partial: static threshold, no smoothing, times on samples, data on the samples of the window when gaps are filled, no silent long-term window, doubles as one monotone rounding function. The coalescence of the detect windows and of the event's window are computed from the data of each, so that effects of filters at the ends of windows are allowed. Example: a pulse at one station, scanned, triggered and located.

## 6. Axioms

Output of `#print axioms` on every theorem of the manifest, grouped. No theorem
depends on any other axiom.

* no axioms (9 theorems): C154_fine, C17_violated, C61_picks_determined, C69_first_code, C69_given_code, C69_violated, C70_no_file, C75_violated, C85_violated.
* `propext` (9 theorems): C130_others_partial, C135_violated_one_phase, C150_violated_single, C150_violated_twice, C158_filter_used, C56_velocity_model, C78_marker_channels_partial, C78_violated_channels, C85_refused_partial.
* `Quot.sound`, `propext` (18 theorems): C143_completed, C152_fine, C33_short_signal_faults, C34_short_signal_faults, C36_recursive_formula_partial, C47_out_of_range, C52_load_restores, C57_windows_shrink, C61_picked, C68_no_column_twice, C68_violated_underscore, C69_one_network_partial, C70_picks, C75_unchanged_partial, C77_own_files_found, C93_files_partial, C93_violated, C93_with_magnitudes.
* `Classical.choice`, `Quot.sound`, `propext` (668 theorems): C01_bad_span_rejected, C01_empty_span_fails, C01_timesteps_consecutive, C01_timesteps_cover, C02_one_row_and_block_per_timestep, C02_other_exception_stops_run, C03_day_files_hold_each_sample_once, C03_detect_appends_good, C03_detect_run_files, C03_stream_holds_one_day, C04_completed_days_durable, C04_continuous_write_durable, C04_modes_agree, C05_coalescence_never_overflows, C05_coordinates_roundtrip, C05_large_coordinate_wraps, C05_order_preserved, C05_roundtrip_half_quantum, C06_read_after_detect, C06_read_returns_stored_partial, C06_violated_after_gap, C07_bad_span_rejected, C07_batches_partition, C07_partition_unique, C08_candidates_are_maximal_runs, C08_every_sample_in_one_run, C09_candidate_windows, C100_events_partial, C100_refused, C100_violated, C101_new_onset, C101_own_padding_partial, C101_violated, C102_names_partial, C102_violated, C103_refused, C103_tables_partial, C103_violated, C104_projection_partial, C104_unknown_ellipsoid, C104_violated, C105_events_partial, C105_missing_number, C105_units, C105_violated, C105_without_picks, C106_contents, C106_one_run_partial, C106_violated, C107_units_partial, C107_violated, C108_amps, C108_picks, C108_stable, C109_distances, C10_events_separated, C10_reported_events_separated, C110_dynamic_partial, C110_dynamic_raw_partial, C110_smoothed_partial, C110_static_partial, C110_violated, C110_violated_small_pad, C111_last_availability_wins, C111_last_call_wins, C111_one_call, C111_refused, C111_split_at_midnights_partial, C111_violated, C111_violated_killed, C112_dynamic_partial, C112_isolated_reported_once_partial, C112_violated_off_grid, C112_violated_small_pad, C113_detect_then_trigger_partial, C113_dynamic_partial, C113_violated_after_gap, C114_detect_value_partial, C114_locate_repeats_detect_partial, C114_locate_value_partial, C114_same_value_any_timestep_partial, C115_burst_located_once_partial, C115_dynamic_partial, C115_locate_gets_what_trigger_reported, C115_violated_normalised, C116_detect_finds_source_partial, C116_detect_smaller_elsewhere_partial, C116_locate_finds_source_partial, C116_violated_rounding, C117_earthquake_gives_one_event_partial, C117_mad_partial, C117_median_ratio_partial, C118_complete_used_partial, C118_incomplete_refused, C118_violated, C118_violated_locate, C118_violated_run, C119_eighths_partial, C119_violated, C119_within_millisecond_partial, C11_groups_unique, C11_merge_partition, C120_timestamps_partial, C120_violated, C121_number_of_steps_partial, C121_steps_tile, C121_violated, C121_whole_seconds_tile, C122_between, C122_constant, C122_event_from_data, C122_gaussian, C122_gaussian_falls, C122_local, C122_monotone, C122_no_shift, C122_reach, C123_mirror_partial, C123_peak_partial, C123_range, C123_scale, C123_violated, C124_centred_partial, C124_classic_partial, C124_counts, C124_violated_centred, C124_violated_classic, C124_violated_gap_centred, C124_violated_gap_classic, C125_cut, C125_filled, C125_gap_onset_violated, C125_return_of_data, C125_used_partial, C125_violated, C126_outcome_partial, C126_violated, C126_violated_edge, C127_filter_partial, C127_violated, C128_detrend, C128_noise, C128_scale, C128_trend, C129_new_partial, C129_nodes, C129_old_partial, C129_violated, C129_violated_serve, C12_filter_exact, C130_constructed_partial, C130_violated, C130_violated_constructor, C130_violated_read, C131_files_partial, C131_violated, C131_violated_no_data, C131_violated_start, C132_error, C132_lines, C132_time, C133_mad_partial, C133_percentile_partial, C133_refused_partial, C133_violated, C133_violated_unknown, C133_violated_zero, C134_covered_partial, C134_extent_partial, C134_max_partial, C134_round_trip, C134_stations, C134_violated_extent, C134_violated_region, C135_components_shown_partial, C135_each_once_partial, C135_violated_no_commas, C135_violated_unequal, C136_geometric_mean, C136_maximum, C136_scan, C136_ten_digits, C137_batch, C137_run, C138_largest_partial, C138_violated_added, C138_violated_lost, C138_within_partial, C139_order, C13_no_event_lost_at_boundary, C13_no_event_twice, C140_constant, C141_detect_explains, C141_detect_explains_all, C141_locate_explains, C142_mad_partial, C142_median_ratio_partial, C142_noisy_earthquake_partial, C143_again, C143_parts, C143_rest, C144_burst_partial, C144_mad, C144_mad_spread, C144_median, C144_one_event_mad_partial, C144_one_event_partial, C144_violated_last_window, C145_dynamic_partial, C145_static_partial, C145_violated, C145_violated_window, C146_numbers_partial, C146_stations, C146_violated, C146_violated_prefix, C147_km_partial, C147_metre_depth, C147_metre_uncertainty_partial, C147_violated, C148_no_overlap, C148_rows, C149_bars, C149_curves, C149_figure, C149_point, C149_violated_visible, C149_visible_partial, C14_mad_threshold, C14_median_threshold, C14_short_window_triggers_everywhere, C14_static_threshold, C14_threshold_local, C150_labels_partial, C150_once_partial, C151_ends_run, C151_fine_partial, C151_raises_iff, C151_violated, C152_axis, C152_drawn_partial, C152_ends_run, C152_fails, C152_fails_short, C152_locate_partial, C152_panels_partial, C152_violated, C152_violated_name, C152_violated_three, C152_visible, C153_cells_partial, C153_ellipses_partial, C153_planes, C153_violated_cells, C153_violated_ellipse, C154_ends_run, C154_made_partial, C154_others, C154_violated_name, C154_violated_rate, C154_violated_station, C155_decimated_scan_partial, C155_location, C155_longest_traveltime, C155_same_peak_partial, C155_violated, C156_legend_determines_threshold, C156_report_determines_events, C156_states_settings, C156_uses_settings, C157_printed_table_partial, C157_violated, C158_amplitude_report, C158_filters_used, C158_magnitude_report_partial, C158_picker_report, C158_violated_corrections, C159_same_events_on_another_day, C15_constructor, C15_interval_invariant_partial, C15_setter_checks, C15_violated_by_later_window, C160_background, C160_scale_of_coalescence, C160_static_scaled_along, C161_other_stations, C161_station_alone, C162_units_partial, C162_violated, C163_bad_channel_absent, C164_order_of_files, C165_values, C165_values_gaps, C165_which, C166_blanked_clear, C166_migrated_clear, C166_values_clear, C167_first_stage_partial, C167_log_place, C167_own_file, C167_screen_partial, C167_violated_early, C167_violated_level, C167_violated_second_stage, C168_between_nodes_partial, C168_dyadic_partial, C168_violated_default_spacing, C168_violated_top, C169_value, C16_id_is_17_digits, C16_ids_sort_in_time_order, C16_ids_unique_in_batch, C16_same_id_iff_same_millisecond, C170_gain_partial, C170_order, C170_violated, C171_covers, C171_exact, C171_found_again, C171_violated, C172_any_day, C172_shift_to_sample, C173_availability_partial, C173_files_partial, C174_located_partial, C174_span, C175_any_day, C176_exact, C176_samples_alone, C176_split_matters, C177_detect, C177_locate, C178_detected_partial, C178_located_partial, C179_detect_partial, C179_locate_partial, C179_run_partial, C179_violated, C17_columns_after_history, C17_columns_first_use_partial, C180_detect, C180_locate, C180_violated, C181_detect, C181_locate, C181_underscore, C181_violated, C182_detect, C182_locate, C183_detect, C183_detect_without, C183_locate, C183_locate_without, C184_dynamic_partial, C184_read_rounds, C184_static, C184_static_batch, C184_stored_numbers, C184_threshold_error, C184_violated_equal, C184_violated_window, C185_coalescence, C185_coordinates, C185_order, C185_stored_again, C185_violated_half, C186_any_cut, C186_ends_early, C186_midnights, C187_corrections, C187_louder, C187_multiplier, C188_gain_and_clock, C188_polarity, C188_polarity_partial, C188_violated_polarity, C189_fails, C189_later, C189_own_rows, C18_boundary_event_twice, C18_consecutive_periods, C18_read_exact, C18_trigger_writes_wf, C190_own_events, C190_same_files_partial, C190_violated_dots, C190_violated_formats, C191_report_determines, C191_report_determines_onsets_partial, C191_states_settings, C191_violated, C192_lines_partial, C192_violated, C193_magnification, C193_real_stable, C193_seismometer, C193_velocity, C194_distances_partial, C194_frame, C194_violated, C195_harmonic, C195_seismograph, C195_swing, C196_report_determines_partial, C196_response_determined, C196_violated, C197_label, C197_same_label, C19_all_located, C19_only_in_window, C19_skip_harmless, C20_slices_aligned_partial, C20_violated, C21_full_window, C21_trim_keeps, C22_detect_sample_count_partial, C22_locate_times_partial, C22_usual_rates, C22_violated, C23_applies, C23_covariance_psd, C23_in_box, C23_in_grid, C23_scales, C23_variance, C24_axes_consistent, C24_edge_gridded, C24_inside, C24_not_below_peak, C25_mask_in_grid, C25_mask_window, C26_guard_needed, C26_mismatch_rejected, C26_no_out_of_bounds, C26_reads_only_own_onset, C26_size_limit_needed, C27_largest_traveltime, C27_padding_covers_traveltimes, C27_scan_meets_migrate_precondition, C28_geometric_mean, C29_between_extremes, C29_monotone, C30_find_max_schedule_independent, C30_migrate_schedule_independent, C31_find_max, C31_normalised_bounds, C31_scale_invariant, C32_nothing_available, C32_rows_aligned, C32_underscore_fails, C33_classic_window_ratio, C33_silent_window, C34_centred_window_ratio, C34_silent_window, C35_centred_backends_agree_partial, C35_centred_equal_windows_violated, C35_classic_backends_agree_partial, C35_classic_silence_violated, C36_recursive_not_centred, C37_between_components, C37_equal_components, C37_floor, C37_low_floor_refused, C38_gain_invariant, C39_centred_local, C39_classic_local, C39_migrated_windows_full, C40_taper_blanked, C40_taper_length, C41_exact, C41_exact_in_doubles, C41_fractional_rate, C41_monotone, C41_nearest, C42_violated, C42_whole_samples_partial, C42_within_millisecond_partial, C43_on_sample_untouched, C43_shifted_on_sample, C44_bad_upfactor_rejected, C44_rates, C45_inserted_between, C45_originals_kept, C45_pad_violated, C45_pads_partial, C45_window, C46_mad_equivariant, C46_median_is_median, C46_threshold_equivariant, C46_triggered_set_invariant, C47_flat_to_ijk, C47_ijk_to_flat, C47_index_round_trip, C47_inside, C47_listed_in_order, C47_map_order, C47_nearest_node, C48_corners, C48_covers, C48_made, C48_refused, C49_carries, C49_coordinate_offset, C49_coordinates_partial, C49_shapes, C49_violated, C50_served, C50_served_all, C51_all_stations, C51_equal_iff, C51_mismatch_unchanged, C51_second_wins, C51_station_table_kept, C51_tables_partial, C51_violated, C52_constructor_partial, C52_read_lut_restores, C52_violated, C53_bilinear_partial, C53_inside_between, C53_node_value, C53_outside, C53_violated, C54_availability_iff, C54_channel_iff, C54_channel_number_required, C54_no_data, C55_days, C55_empty, C56_accepted_iff, C56_latitude_partial, C56_violated, C57_in_locate, C57_windows_ordered, C58_no_peak_iff, C58_peak_iff, C59_locate_windows, C59_no_abort_partial, C59_picking_completes_partial, C59_strictly_inside, C59_violated, C60_noise_samples, C60_non_interference, C61_P_arrival_iff, C61_arrivals, C61_error_iff, C61_modelled_contained, C61_noise_window, C61_picks_own, C61_violated, C61_windows_partial, C62_failure_iff, C62_half_swing, C63_between, C63_mean, C63_order, C63_shift, C63_single, C63_violated, C63_weighted_error_partial, C63_weighted_mean, C64_defined_partial, C64_station_partial, C64_station_violated, C64_used, C64_violated_distance, C64_violated_noise_filter, C64_violated_weights, C65_at_most_one, C65_error_iff, C65_one_iff_partial, C65_undefined_iff, C65_violated_nan, C65_violated_selection, C66_clear_of_taper_partial, C66_covered_partial, C66_inside_iff, C66_violated, C67_last_write_wins, C67_read_merges, C67_round_trip, C68_new_unchanged_partial, C68_old_converted_partial, C70_amplitudes, C70_nlloc, C71_files_hold_this_run_partial, C71_violated_stale_file, C72_runs_on_other_days_independent_partial, C72_violated_same_day, C73_small_offset_partial, C73_violated_last_sample, C73_violated_off_grid_start, C74_waveforms_cover, C76_rows, C77_files_read_partial, C77_match_iff_partial, C77_other_day_never, C77_violated, C78_marker_time_iff, C78_marker_time_partial, C78_violated, C79_sac_arrivals, C80_elevation_partial, C80_violated, C81_accepted_iff, C81_accepted_partial, C81_violated, C82_anchor, C82_increasing_partial, C82_violated, C83_default_measurement, C83_peaks_are_local_maxima, C83_prominence_filters, C83_prominence_measurement_partial, C83_violated, C84_rows_partial, C84_violated_filtered, C84_violated_repeated, C84_violated_sorted, C86_gap_is_gap, C86_no_duplicates, C86_raw_samples, C86_samples, C87_channels_independent, C87_order_irrelevant, C88_errors_partial, C88_violated, C89_columns, C89_trigger_info, C89_values, C90_violated, C90_written_iff_partial, C91_detect_shared, C91_distinct_files_partial, C91_trigger_ids, C91_violated_names, C91_violated_uids, C92_error, C92_error_covers, C92_magnitude, C92_rows, C92_tenfold, C93_no_inventory, C94_flat_grid, C94_location, C94_uncertainty_partial, C94_uncertainty_principal_partial, C94_violated, C95_at_node, C95_between, C95_exact_if_linear, C95_modelled_at_node, C95_modelled_error_partial, C95_modelled_partial, C95_violated, C96_homogeneous_tables, C96_model_methods, C96_physical, C96_refused, C97_fmm_profile, C97_nlloc_blocks, C97_nlloc_profile, C98_fmm_tables, C98_source_nearest, C99_cleaned_up, C99_other_files_partial, C99_retained, C99_violated.

## 7. Coverage of the code

Line numbers are those of the pinned commit. Everything not listed as modelled is not.

| file | modelled | not modelled |
|------|----------|--------------|
| core/src/migratelib.c | all | - |
| core/src/onsetlib.c | all three loops, with checked accesses; the classic and centred loops also in double precision | - |
| core/lib.py | `migrate`, `find_max_coa`, STA/LTA wrappers (shape checks, clips, logs) | ctypes marshalling, library loading |
| signal/scan.py | `detect`, `_continuous_compute`, `locate` event loop, `_compute` sample counts, `_read_event_waveform_data` windows, `_calculate_location` marginalisation, `_splineloc`, `_gaufilt3d`, `_gaufit3d`, `_covfit3d`, `_mask3d`, constructor, setters, arguments of `locate` | logging, plots |
| signal/trigger.py | `chunks2trace`, `trigger` batches, `_smooth_coa`, `_get_threshold`, `_identify_candidates`, `_refine_candidates`, `_filter_events`, setters, EventID | plots, reading of a region file |
| signal/onsets/base.py, stalta.py | pads, both backends, `_onset`, taper trimming, `calculate_onsets` bookkeeping, filling of gaps, which filter is applied, the whole of `calculate_onsets` (CalcOnsets.lean), constructor and deprecated names, `STALTAOnset.__str__` | what a filter does to the data, detrending, `gaussian_halfwidths` |
| signal/pickers/gaussian.py | all but plots and file writing | curve fit (parameter), plots |
| signal/local_mag/amplitude.py | picks, windows, pads, peaks and troughs, peak-to-trough measure, table of amplitudes, distances, filter checks of the constructor, which filter is applied, noise and average amplitude | response removal, what a filter does to the data, envelope and filter gain (parameters) |
| signal/local_mag/magnitude.py | all | drawing |
| io/scanmseed.py, availability.py, triggered_events.py | all but directory creation | directory creation |
| io/event.py | trimming, marginal-window times, check, maximum, writing of the event file | time formatting |
| io/cut_waveforms.py | `write_cut_waveforms`, `get_waveforms` | file formats |
| io/data.py | archive formats and query, `read_waveform_data`, `check_availability`, `Archive.__str__` | response removal (a parameter of the cut-waveform model), tapers and pre-filter of the Wood-Anderson simulation |
| io/core.py | `stations` header check, `read_lut`, `Run` (names, paths, `logger`) | responses |
| lut/lut.py, lut/__init__.py | `Grid3D`, `LUT` (projections as parameters), extents, tables in the old format, `update_lut`, panels, aspect and scale bar of `LUT.plot` | map projections, drawing |
| lut/create_lut.py | `compute_traveltimes`, `_compute_homogeneous`, `_compute_1d_fmm`, `_eikonal_fmm` (source node), `_compute_1d_nlloc` (files), `_vmodel_string`, `_velocity_gradient`, `_bilinear_interpolate`, `_grid_string`, `read_nlloc`, `_read_nlloc` | eikonal solvers, NonLinLoc runs |
| export/*.py | stations, picks, markers, MFAST files, NonLinLoc lines, `read_quakemigrate` | resource identifiers, QuakeML conversion |
| io/amplitudes.py, signal/pickers/base.py | `write_amplitudes`, `write` | directory creation |
| signal/local_mag/local_mag.py | `calc_magnitude` (files and event, when the figure is made and fails) | drawing |
| util.py | `time2sample`, `trim2sample`, `shift_to_sample`, `resample`, `decimate`, `upsample`, `calculate_mad`, `merge_stream`, `logger`, `wa_response` | decorators, date labels of figures |
| plot/trigger.py, plot/event.py | availability panel, stations shown, rows and norm of the waveform gather, numbers of the location text, slices, panels of the map and sections, ellipses, exceptions of the event summary | drawing |
| plot/amplitudes.py | crosses, noise, station labels, limits, curves | drawing |
| plot/phase_picks.py | axes, windows, arrivals, picks, limits, exceptions | drawing |

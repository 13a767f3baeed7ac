{"id": "C01", "title": "Detect timesteps tile the requested period", "statement": "For every detect(starttime, endtime) call with starttime <= endtime, the timesteps that are scanned follow one another with no gap and no overlap, start at starttime, and together cover every instant up to endtime (or, if endtime is midnight, up to one scan sample before it); the number of timesteps is the least that does so. starttime > endtime is rejected.", "quantifier": "all start and end times, all positive timesteps and scan rates, midnight and non-midnight end times", "why_tests_cant": "The claim is about every combination of duration, timestep and scan rate, including non-divisible durations and the midnight adjustment; a test fixes one.", "anchors": ["quakemigrate/signal/scan.py:QuakeScan.detect", "quakemigrate/signal/scan.py:QuakeScan._continuous_compute"]}
{"id": "C02", "title": "One availability row and one scan block per timestep, whatever the archive does", "statement": "However the archive behaves at each timestep (data, no files, gap, no usable channel), a completed detect run records exactly one availability row per timestep, labelled with that timestep's start, and appends exactly one block of scan samples starting at that timestep's start; a failed timestep contributes an all-zero row and an all-zero block of timestep*scan_rate samples. Any other exception ends the run without producing rows for later timesteps.", "quantifier": "all sequences of per-timestep archive outcomes of any length", "why_tests_cant": "The space of outcome histories is exponential in the number of timesteps; a test runs one history.", "anchors": ["quakemigrate/signal/scan.py:QuakeScan._continuous_compute", "quakemigrate/io/scanmseed.py:ScanmSEED.empty"]}
{"id": "C03", "title": "Continuous scan output reaches disk exactly once, in its own day's file", "statement": "When detect ends, the day files together contain every appended scan sample exactly once and in order, and each day's file contains exactly the samples of that day, for any sequence of contiguous appends of at most one day each whose samples fall on the sample grid counted from midnight. Between appends the in-memory stream never holds samples of two different days.", "quantifier": "all sequences of contiguous appends (any number, any lengths up to one day, any start offset in the day), both write modes", "why_tests_cant": "Depends on how append boundaries fall relative to midnight over the whole history of the run.", "anchors": ["quakemigrate/io/scanmseed.py:ScanmSEED.append", "quakemigrate/io/scanmseed.py:ScanmSEED.write", "quakemigrate/signal/scan.py:QuakeScan._continuous_compute"]}
{"id": "C04", "title": "Continuous-write mode is durable after every append and changes nothing else", "statement": "With continuous_scanmseed_write on, a crash after any append leaves on disk every sample appended so far; with it off, a crash leaves every completed day. Both modes leave identical day files when the run ends normally.", "quantifier": "all append histories and all crash points between appends", "why_tests_cant": "Crash points and append histories are unbounded.", "anchors": ["quakemigrate/io/scanmseed.py:ScanmSEED.append", "quakemigrate/io/scanmseed.py:ScanmSEED.write"]}
{"id": "C05", "title": "Scan values are stored without integer overflow and to half a quantum", "statement": "Every coalescence value stored by append fits a 32-bit signed integer, and reading it back gives a value within half a quantum (0.5e-5) of the original clipped at 21474; storage preserves the order of values. X/Y (longitude, latitude) and Z values likewise round-trip to half a quantum whenever |value*factor| is at most 2^31 - 1; beyond that they wrap.", "quantifier": "all non-negative coalescence values, all coordinates in range, all unit conversion factors", "why_tests_cant": "Overflow and rounding must hold for every real value, not for samples.", "anchors": ["quakemigrate/io/scanmseed.py:ScanmSEED.append", "quakemigrate/io/scanmseed.py:ScanmSEED._data2int", "quakemigrate/io/scanmseed.py:read_scanmseed"]}
{"id": "C06", "title": "read_scanmseed returns every stored sample in the requested padded window", "statement": "read_scanmseed(start, end, pad) returns all samples stored in the day files with timestamps in [start-pad, end+pad], in time order, and raises NoScanMseedDataException only if there are none.", "quantifier": "all sets of day files (with or without missing days), all windows and pads", "why_tests_cant": "Must hold for every pattern of present/missing files; the gap case is never exercised by the single-day tests.", "anchors": ["quakemigrate/io/scanmseed.py:read_scanmseed"]}
{"id": "C07", "title": "Trigger batches partition the requested period at midnights", "statement": "For every trigger(starttime, endtime) with starttime <= endtime the batches are consecutive, non-empty, none crosses a midnight, and their union is exactly [starttime, endtime); starttime > endtime raises TimeSpanException and runs no batch.", "quantifier": "all start and end times", "why_tests_cant": "Any number of days and any offsets; loop termination and boundary handling are universally quantified.", "anchors": ["quakemigrate/signal/trigger.py:Trigger.trigger"]}
{"id": "C08", "title": "Candidates are exactly the maximal runs of samples at or above threshold", "statement": "Every sample at or above threshold belongs to exactly one candidate, every candidate is a run of consecutive samples at or above threshold, and a run cannot be extended; the candidate's reported time is the first sample of maximal COA within the run and its TRIG_COA is the trigger trace's value there.", "quantifier": "all coalescence traces and threshold arrays of any length", "why_tests_cant": "Quantifies over every trace.", "anchors": ["quakemigrate/signal/trigger.py:Trigger._identify_candidates"]}
{"id": "C09", "title": "Candidate time windows contain the run and leave at least the minimum event interval around the peak", "statement": "For every candidate, MinTime <= CoaTime - min_event_interval and MaxTime >= CoaTime + min_event_interval, the window contains the whole above-threshold run, and it extends no further than required by the two rules in the documentation (peak -/+ min_event_interval, or run edge -/+ (min_event_interval - marginal_window)).", "quantifier": "all runs, all marginal windows > 0 and min_event_interval >= 2*marginal_window", "why_tests_cant": "All geometries of peak position inside the run relative to the marginal window.", "anchors": ["quakemigrate/signal/trigger.py:Trigger._identify_candidates"]}
{"id": "C10", "title": "Events triggered in a batch are separated by more than the minimum event interval", "statement": "Any two events returned for a batch have CoaTimes more than min_event_interval apart (indeed more than min_event_interval + marginal_window).", "quantifier": "all coalescence traces, thresholds, marginal windows and intervals accepted by the setter", "why_tests_cant": "Pairwise merging must imply the global separation for every candidate sequence.", "anchors": ["quakemigrate/signal/trigger.py:Trigger._refine_candidates", "quakemigrate/signal/trigger.py:Trigger._identify_candidates"]}
{"id": "C11", "title": "Merging loses no candidate and keeps the best one", "statement": "Refinement groups the candidates into consecutive groups, each candidate in exactly one group; two adjacent candidates are in different groups iff neither's marginal window touches the other's search window; each event reports the candidate of its group with the largest TRIG_COA (the earliest on ties) and the earliest MinTime and latest MaxTime of its group.", "quantifier": "all candidate lists of any length", "why_tests_cant": "Induction over the list of candidates.", "anchors": ["quakemigrate/signal/trigger.py:Trigger._refine_candidates"]}
{"id": "C12", "title": "Event filtering keeps exactly the events in the time span and region", "statement": "An event is kept iff its CoaTime is in [start, end] and, if a region is given, its location is inside the closed box; order is preserved, nothing is invented, and every refined event is either kept or discarded, never both.", "quantifier": "all event lists, time spans and regions", "why_tests_cant": "Universally quantified over events and boxes (including boundary equality).", "anchors": ["quakemigrate/signal/trigger.py:Trigger._filter_events", "quakemigrate/signal/trigger.py:Trigger._trigger_batch"]}
{"id": "C13", "title": "A multi-day trigger run reports each event time in one batch only", "statement": "Across all batches of one trigger call, no event time can be reported by two batches, and every reported event lies in [starttime, endtime] and in the day whose file it is written to.", "quantifier": "all start/end times, all scan data on the sample grid, all regions and thresholds", "why_tests_cant": "Quantifies over all batch sequences and all data.", "anchors": ["quakemigrate/signal/trigger.py:Trigger.trigger", "quakemigrate/signal/trigger.py:Trigger._trigger_batch"]}
{"id": "C14", "title": "The dynamic threshold is defined per sample and is local to its window", "statement": "The threshold array has exactly one value per scan sample; the value at a sample is the median (times multiplier) or median + multiplier*MAD of the window_length chunk that contains the sample and depends on no other chunk; the static threshold is constant. A window shorter than one sample silently acts as a one-sample window, so that the MAD threshold equals the trace and every sample triggers.", "quantifier": "all traces, window lengths, sampling rates, multipliers", "why_tests_cant": "All residues of trace length modulo chunk length.", "anchors": ["quakemigrate/signal/trigger.py:Trigger._get_threshold", "quakemigrate/signal/trigger.py:chunks2trace", "quakemigrate/util.py:calculate_mad"]}
{"id": "C15", "title": "min_event_interval is never less than twice the marginal window", "statement": "After any sequence of accepted parameter assignments on a Trigger object, min_event_interval >= 2*marginal_window; a rejected assignment changes nothing.", "quantifier": "all histories of attribute assignments", "why_tests_cant": "History property; the setter only checks at one of the assignments.", "anchors": ["quakemigrate/signal/trigger.py:Trigger.min_event_interval", "quakemigrate/signal/trigger.py:Trigger.minimum_repeat"]}
{"id": "C16", "title": "Event identifiers are 17 digits and unique within a trigger run", "statement": "Every EventID is a 17-digit string determined by the event's time truncated to the millisecond, sorts in time order, and two events of a batch never share an EventID.", "quantifier": "all event times (years 1000-9999) and all event lists produced by a batch whose samples, or whose events (min_event_interval + marginal_window), are at least a millisecond apart", "why_tests_cant": "Uniqueness over all pairs of event times.", "anchors": ["quakemigrate/signal/trigger.py:Trigger._refine_candidates"]}
{"id": "C17", "title": "The triggered-event file has the documented columns regardless of what was written before", "statement": "The columns written for a batch are the eight documented ones, plus MinTime and MaxTime exactly once iff write_event_time_windows is on, independently of earlier batches, days or Trigger objects in the process.", "quantifier": "all histories of write calls", "why_tests_cant": "History dependence across calls in one process.", "anchors": ["quakemigrate/io/triggered_events.py:write_triggered_events"]}
{"id": "C18", "title": "Locating consecutive periods locates each triggered event once", "statement": "Reading triggered events for [a,b] and then [b,c] returns each event with CoaTime in [a,c] exactly once, provided b is a midnight; events outside are never returned. (For non-midnight b an event exactly at b is returned twice.)", "quantifier": "all event catalogues, all a <= b <= c", "why_tests_cant": "All boundary alignments.", "anchors": ["quakemigrate/io/triggered_events.py:read_triggered_events"]}
{"id": "C19", "title": "A located event's origin time is within the marginal window of its trigger time", "statement": "locate writes an event only if its origin time (time of maximum coalescence) is strictly within marginal_window of the trigger time; other events and events with unusable data produce no event output, and one skipped event never prevents the others from being located.", "quantifier": "all trigger lists and all per-event outcomes", "why_tests_cant": "All outcome histories.", "anchors": ["quakemigrate/signal/scan.py:QuakeScan._locate_events", "quakemigrate/io/event.py:Event.in_marginal_window"]}
{"id": "C20", "title": "After trimming, the coalescence map and time series cover the same samples", "statement": "After trimming to the marginal window the 4-D map has one slice for each row of the coalescence time series, slice k belonging to row k.", "quantifier": "all origin times, marginal windows and sampling rates", "why_tests_cant": "Off-by-one errors at every window alignment.", "anchors": ["quakemigrate/io/event.py:Event.trim2window"]}
{"id": "C21", "title": "Trimming to the marginal window keeps the origin time and the maximum coalescence", "statement": "Trimming keeps exactly the samples within marginal_window of the origin time and does not change the origin time, nor the maximum coalescence reported for the event.", "quantifier": "all coalescence time series", "why_tests_cant": "Quantifies over all series including ties.", "anchors": ["quakemigrate/io/event.py:Event.trim2window", "quakemigrate/io/event.py:Event.add_compute_output", "quakemigrate/io/event.py:Event.max_coalescence"]}
{"id": "C22", "title": "Coalescence samples and their timestamps line up", "statement": "In detect every successful timestep yields exactly timestep*scan_rate samples beginning at the timestep's start; in locate the number of coalescence samples equals the number of timestamps generated for the window trigger_time +/- 2*marginal_window.", "quantifier": "all timesteps, marginal windows, pads and sampling rates for which these are whole numbers of samples", "why_tests_cant": "All pad lengths and rates.", "anchors": ["quakemigrate/signal/scan.py:QuakeScan._compute", "quakemigrate/core/lib.py:migrate", "quakemigrate/io/event.py:Event.mw_times", "quakemigrate/signal/onsets/base.py:Onset.pad"]}
{"id": "C23", "title": "The covariance location lies inside the grid and its uncertainties are well defined", "statement": "For every coalescence map the covariance location is inside the bounding box of the nodes above threshold (hence inside the grid), its variances are non-negative, and both scale and translate with the node spacing and grid origin.", "quantifier": "all coalescence maps with at least one node above threshold, all grid sizes and spacings", "why_tests_cant": "All maps.", "anchors": ["quakemigrate/signal/scan.py:QuakeScan._covfit3d"]}
{"id": "C24", "title": "The spline location lies inside the grid", "statement": "The spline location is always a point of the grid volume within two nodes of the gridded maximum; if the interpolation window crosses the edge so that its sides differ, it is exactly the gridded maximum; and the axis order used for interpolation is consistent, so the upscaled map reproduces the coalescence map at grid nodes.", "quantifier": "all maps, all positions of the maximum, any interpolant that reproduces its data", "why_tests_cant": "All positions relative to the edges.", "anchors": ["quakemigrate/signal/scan.py:QuakeScan._splineloc"]}
{"id": "C25", "title": "The location-fit mask selects exactly the in-grid window around the peak", "statement": "The mask used for the local fits selects node (i,j,k) iff each index is within (win-1)//2 of the peak's; it always contains the peak and never wraps around an edge.", "quantifier": "all grid shapes, peak positions and window sizes >= 1", "why_tests_cant": "All shapes and positions.", "anchors": ["quakemigrate/signal/scan.py:QuakeScan._mask3d"]}
{"id": "C26", "title": "Migration reads only inside the onset function it is migrating", "statement": "migrate never reads outside the onset array, and for each station/phase reads only that station/phase's onset function, whenever every traveltime (in samples) is at most last_idx.", "quantifier": "all onset arrays, traveltime grids, first/last indices", "why_tests_cant": "Memory safety over all sizes; a violation silently mixes stations rather than failing.", "anchors": ["quakemigrate/core/src/migratelib.c:migrate", "quakemigrate/core/lib.py:migrate"]}
{"id": "C27", "title": "The padding computed by the scan makes every traveltime fit", "statement": "For every lookup table, onset configuration and timespan, the padding used by detect and locate is at least the largest traveltime in the table, in whole samples, so that the precondition of safe migration always holds.", "quantifier": "all traveltime tables, STA/LTA windows, sampling rates and timespans", "why_tests_cant": "Rounding at every sampling rate.", "anchors": ["quakemigrate/signal/onsets/stalta.py:STALTAOnset.post_pad", "quakemigrate/signal/onsets/base.py:Onset.pad", "quakemigrate/lut/lut.py:LUT.serve_traveltimes", "quakemigrate/lut/lut.py:LUT.max_traveltime"]}
{"id": "C28", "title": "Coalescence is the geometric mean of the time-shifted onset functions", "statement": "Each value of the 4-D map equals the geometric mean, over the available station/phase onset functions (floored at 0.01), of the onset value at sample + traveltime.", "quantifier": "all onsets, traveltimes, node counts and sample counts", "why_tests_cant": "All sizes and values.", "anchors": ["quakemigrate/core/src/migratelib.c:migrate", "quakemigrate/core/lib.py:migrate"]}
{"id": "C29", "title": "Coalescence is bounded by and monotone in the onset functions", "statement": "Each coalescence value lies between the smallest and the largest of the stacked (floored) onset values, and increasing any onset sample never decreases any coalescence value.", "quantifier": "all onsets and traveltimes", "why_tests_cant": "All pairs of inputs.", "anchors": ["quakemigrate/core/src/migratelib.c:migrate", "quakemigrate/core/lib.py:migrate"]}
{"id": "C30", "title": "The coalescence map does not depend on the number of threads or their schedule", "statement": "Whatever order the node computations are executed or interleaved in, migrate and find_max_coa produce the same output arrays as the serial loop.", "quantifier": "all interleavings of the per-node (per-sample) work across any number of threads", "why_tests_cant": "Schedules cannot be enumerated.", "anchors": ["quakemigrate/core/src/migratelib.c:migrate", "quakemigrate/core/src/migratelib.c:find_max_coa"]}
{"id": "C31", "title": "The maximum coalescence, its node and its normalised value are correct", "statement": "At each sample find_max_coa returns the maximum over nodes, the smallest node index attaining it, and max*n_nodes/sum; for positive maps the normalised value is between 1 and the number of nodes and is unchanged when the map is multiplied by a constant.", "quantifier": "all maps, any number of nodes >= 1", "why_tests_cant": "All maps including ties.", "anchors": ["quakemigrate/core/src/migratelib.c:find_max_coa", "quakemigrate/core/lib.py:find_max_coa"]}
{"id": "C32", "title": "Onset functions and traveltime tables are paired correctly", "statement": "For every pattern of available station/phase onsets the k-th migrated onset function and the k-th served traveltime table belong to the same station and phase, and the divisor used for the geometric mean is their number.", "quantifier": "all station lists, phase lists and availability patterns (station names without underscore)", "why_tests_cant": "Exponentially many availability patterns.", "anchors": ["quakemigrate/signal/onsets/stalta.py:STALTAOnset.calculate_onsets", "quakemigrate/lut/lut.py:LUT.serve_traveltimes", "quakemigrate/signal/scan.py:QuakeScan._compute"]}
{"id": "C33", "title": "The classic STA/LTA onset is the documented window ratio", "statement": "For every non-negative signal the overlapping STA/LTA at sample i >= nlta-1 is the mean of the last nsta samples divided by the mean of the last nlta samples, and 1 at earlier samples.", "quantifier": "all signals with at least nlta samples, all 1 <= nsta <= nlta, positive long-term sums", "why_tests_cant": "The running-sum implementation must agree with the definition at every index.", "anchors": ["quakemigrate/core/src/onsetlib.c:overlapping_sta_lta", "quakemigrate/core/lib.py:overlapping_sta_lta"]}
{"id": "C34", "title": "The centred STA/LTA onset is the documented window ratio", "statement": "For every non-negative signal the centred STA/LTA at sample i with nlta-1 <= i < n-nsta is the mean of samples i+1..i+nsta divided by the mean of samples i-nlta+1..i, and 1 elsewhere.", "quantifier": "all signals with at least nlta+nsta samples, all nsta, nlta >= 1, positive long-term sums", "why_tests_cant": "As C33.", "anchors": ["quakemigrate/core/src/onsetlib.c:centred_sta_lta", "quakemigrate/core/lib.py:centred_sta_lta"]}
{"id": "C35", "title": "The C and Python STA/LTA backends agree", "statement": "For both window positions the Python backend and the C backend return the same onset function.", "quantifier": "all non-negative signals and window lengths", "why_tests_cant": "All signals including ones with zero long-term windows.", "anchors": ["quakemigrate/signal/onsets/stalta.py:overlapping_sta_lta_py", "quakemigrate/signal/onsets/stalta.py:centred_sta_lta_py", "quakemigrate/core/src/onsetlib.c"]}
{"id": "C36", "title": "The recursive STA/LTA reproduces the centred STA/LTA", "statement": "As documented, recursive_sta_lta reproduces exactly the centred STA/LTA onset.", "quantifier": "all signals", "why_tests_cant": "An equality over all signals.", "anchors": ["quakemigrate/core/src/onsetlib.c:recursive_sta_lta", "quakemigrate/core/lib.py:recursive_sta_lta"]}
{"id": "C37", "title": "Onset functions never fall below the configured floor and combine components between their extremes", "statement": "Every sample of a computed onset function is at least min_onset_value >= 0.01, so migration's own floor never alters it; above the floor the combined onset lies between the smallest and largest component onset.", "quantifier": "all component sets and signals", "why_tests_cant": "All signals.", "anchors": ["quakemigrate/signal/onsets/stalta.py:STALTAOnset._onset", "quakemigrate/signal/onsets/stalta.py:STALTAOnset.__init__", "quakemigrate/core/lib.py:migrate"]}
{"id": "C38", "title": "Onset functions do not depend on instrument gain", "statement": "Multiplying a waveform by any non-zero constant leaves its STA/LTA onset unchanged, for both positions.", "quantifier": "all signals, all non-zero gains", "why_tests_cant": "Metamorphic relation over all signals.", "anchors": ["quakemigrate/signal/onsets/stalta.py:STALTAOnset._onset", "quakemigrate/core/src/onsetlib.c"]}
{"id": "C39", "title": "Onset values depend only on data inside their windows", "statement": "The onset at a sample depends only on the nlta samples up to it (classic) or the nlta samples up to it and the nsta samples after it (centred); two recordings agreeing there give the same onset there, so with the pads used by the scan no onset value used for migration depends on data outside the padded window.", "quantifier": "all pairs of signals", "why_tests_cant": "Non-interference over pairs of signals.", "anchors": ["quakemigrate/core/src/onsetlib.c", "quakemigrate/signal/onsets/stalta.py:STALTAOnset.pre_pad"]}
{"id": "C40", "title": "Taper pads are blanked and nothing else", "statement": "When a timespan is given, exactly the first taper_pad+ltw-1 and the last taper_pad+stw samples of the onset are set to 1 and all other samples are unchanged.", "quantifier": "all onset lengths and pads", "why_tests_cant": "All lengths including ones shorter than the pads.", "anchors": ["quakemigrate/signal/onsets/stalta.py:STALTAOnset._trim_taper_pad"]}
{"id": "C41", "title": "time2sample returns the nearest whole number of samples", "statement": "time2sample(t, sr) is an integer within half a sample of t*sr, is exact on whole samples, and is monotone in t.", "quantifier": "all times and integer sampling rates", "why_tests_cant": "All reals.", "anchors": ["quakemigrate/util.py:time2sample"]}
{"id": "C42", "title": "trim2sample returns a whole number of samples not shorter than the input", "statement": "trim2sample(t, sr) is a whole number of samples and at least t.", "quantifier": "all times >= 0, all sampling rates", "why_tests_cant": "All rates; fails for rates that do not divide 1000.", "anchors": ["quakemigrate/util.py:trim2sample"]}
{"id": "C43", "title": "Off-sample data are shifted by at most half a sample onto the sample grid", "statement": "After shift_to_sample every trace starts a whole number of samples after the second, the time shift is at most half a sample, and on-sample traces are untouched.", "quantifier": "all start times and all sampling rates whose period is a whole number of nanoseconds dividing one second", "why_tests_cant": "All offsets.", "anchors": ["quakemigrate/util.py:shift_to_sample"]}
{"id": "C44", "title": "Resampling brings every trace it accepts to the requested rate", "statement": "After resample every trace either has the requested sampling rate or (when it can neither be decimated nor, with the given settings, upsampled) its original one; a bad upfactor is rejected.", "quantifier": "all streams, rates and upfactors", "why_tests_cant": "All rate combinations.", "anchors": ["quakemigrate/util.py:resample", "quakemigrate/util.py:decimate", "quakemigrate/util.py:upsample"]}
{"id": "C45", "title": "Upsampling preserves the original samples and only interpolates between them", "statement": "Upsampling by u keeps every original sample at multiples of u, all inserted values lie between their neighbours, the length is (n-1)*u+1 plus the pads, and the pads repeat the first/last value.", "quantifier": "all traces with at least one sample and all upfactors >= 1", "why_tests_cant": "All traces; pad values are truncated to integers for float data.", "anchors": ["quakemigrate/util.py:upsample"]}
{"id": "C46", "title": "Thresholds based on median and MAD are equivariant", "statement": "calculate_mad is non-negative, invariant under shifts and reordering and scales with |a|; hence the MAD threshold of a*x+b (a>0) is a*threshold(x)+b and the set of triggered samples is unchanged.", "quantifier": "all non-empty arrays and all a>0, b", "why_tests_cant": "Metamorphic relation over all arrays.", "anchors": ["quakemigrate/util.py:calculate_mad", "quakemigrate/signal/trigger.py:Trigger._get_threshold"]}
{"id": "C47", "title": "Grid indices, flat indices and coordinates convert back and forth exactly", "statement": "Flattened node indices and (i,j,k) indices are in bijection over the grid in the order used by migration, and converting an index to grid coordinates and back returns the index; converting any point to an index returns a node within half a spacing on each axis.", "quantifier": "all grids, all nodes, all points", "why_tests_cant": "All grid shapes.", "anchors": ["quakemigrate/lut/lut.py:Grid3D.index2grid", "quakemigrate/lut/lut.py:Grid3D.index2coord"]}
{"id": "C48", "title": "The grid covers the requested volume", "statement": "The generated grid contains both requested corners, uses exactly the requested spacing and overshoots the upper corner by less than one spacing.", "quantifier": "all corners with ll <= ur and all positive spacings", "why_tests_cant": "All reals.", "anchors": ["quakemigrate/lut/lut.py:Grid3D.__init__"]}
{"id": "C49", "title": "Decimated lookup tables keep the traveltimes of the nodes they claim to represent", "statement": "After decimation the node counts match the traveltime arrays, and each node's coordinates are those of the original node whose traveltimes it carries.", "quantifier": "all grids and decimation factors", "why_tests_cant": "All remainders of node count by factor.", "anchors": ["quakemigrate/lut/lut.py:Grid3D.decimate"]}
{"id": "C50", "title": "Served traveltimes are the table values to the nearest sample", "statement": "serve_traveltimes returns, for each available station/phase, its table rounded to the nearest sample (error at most half a sample), non-negative if the table is.", "quantifier": "all tables and sampling rates", "why_tests_cant": "All values.", "anchors": ["quakemigrate/lut/lut.py:LUT.serve_traveltimes"]}
{"id": "C51", "title": "Adding lookup tables never changes the tables already present", "statement": "lut1 + lut2 (same grid) contains every station of both and, as documented, keeps lut1's table for stations present in both; with different grids nothing is modified.", "quantifier": "all pairs of lookup tables", "why_tests_cant": "All key overlaps.", "anchors": ["quakemigrate/lut/lut.py:LUT.__add__"]}
{"id": "C52", "title": "A lookup table loaded from file is the one that was saved", "statement": "Loading a saved lookup table restores its traveltimes, phases, grid and station information.", "quantifier": "all lookup tables, both loading routes", "why_tests_cant": "Round trip over all states.", "anchors": ["quakemigrate/lut/lut.py:LUT.__init__", "quakemigrate/lut/lut.py:LUT.load", "quakemigrate/lut/lut.py:LUT.save", "quakemigrate/io/core.py:read_lut"]}
{"id": "C53", "title": "Bilinear traveltime interpolation is exact at nodes and between its corners elsewhere", "statement": "The traveltime interpolated from the 2-D table equals the table at table nodes, lies between the four surrounding nodes elsewhere and reads only inside the table.", "quantifier": "all tables, origins, spacings and query points", "why_tests_cant": "All origins; fails if the origin is not a multiple of the spacing.", "anchors": ["quakemigrate/lut/create_lut.py:_bilinear_interpolate", "quakemigrate/lut/create_lut.py:_grid_string"]}
{"id": "C54", "title": "Availability is decided exactly by the documented quality criteria", "statement": "A channel is available iff it is not flat, has no overlaps, and meets each requested check (gaps, sampling rate, full timespan, start/end time); the station/phase is available iff (all_channels off) some channel is available or (all_channels on) every channel is and the expected number is present.", "quantifier": "all streams and all option combinations", "why_tests_cant": "Product of all options and streams.", "anchors": ["quakemigrate/io/data.py:WaveformData.check_availability"]}
{"id": "C55", "title": "The archive query covers every day touched by the window", "statement": "For every window the archive is queried for each calendar day that intersects [start, end], once each, in order, for every station, and for no other day.", "quantifier": "all windows and station lists", "why_tests_cant": "All alignments with midnights.", "anchors": ["quakemigrate/io/data.py:Archive._load_from_path"]}
{"id": "C56", "title": "A station file with a missing column is rejected with the documented error", "statement": "read_stations rejects any station file lacking one of Latitude, Longitude, Elevation or Name with StationFileHeaderException.", "quantifier": "all header sets", "why_tests_cant": "All subsets of headers.", "anchors": ["quakemigrate/io/core.py:read_stations"]}
{"id": "C57", "title": "Pick windows of one station are ordered and do not overlap", "statement": "After adjustment the pick windows of a station's phases do not overlap, stay within the onset function and contain their modelled arrivals, whenever the arrivals are in order and inside the onset function.", "quantifier": "all arrival times, window lengths and numbers of phases", "why_tests_cant": "Chains of any length.", "anchors": ["quakemigrate/signal/pickers/gaussian.py:GaussianPicker._distinguish_windows", "quakemigrate/signal/pickers/gaussian.py:GaussianPicker._determine_window"]}
{"id": "C58", "title": "The picked peak is the maximal above-threshold run around the window's maximum", "statement": "When a peak is found it is the maximal run of consecutive samples above threshold that contains the window's (first) maximum; NoOnsetPeak is raised iff no sample exceeds the threshold or that run has a single sample.", "quantifier": "all onset windows and thresholds", "why_tests_cant": "All traces.", "anchors": ["quakemigrate/signal/pickers/gaussian.py:GaussianPicker._find_peak"]}
{"id": "C59", "title": "A reported pick lies strictly inside its pick window, and picking never aborts", "statement": "For every onset function and window the picker returns either the failure value (-1) or a pick strictly inside the window; it never raises.", "quantifier": "all onsets, windows and curve-fit outcomes", "why_tests_cant": "All data and all optimiser outcomes.", "anchors": ["quakemigrate/signal/pickers/gaussian.py:GaussianPicker._fit_gaussian"]}
{"id": "C60", "title": "The pick threshold is computed only from noise samples", "statement": "The pick threshold depends only on onset samples outside every pick window of the station and with value > 1.", "quantifier": "all onsets and windows", "why_tests_cant": "Non-interference.", "anchors": ["quakemigrate/signal/pickers/gaussian.py:GaussianPicker._find_pick_threshold"]}
{"id": "C61", "title": "Amplitude windows are ordered, disjoint and contain their picks", "statement": "For every station the P window ends no later than the S window starts, the P window contains the P pick, the S window contains the S pick and ends at least signal_window after it, and PickOrderException is raised iff P is not before S.", "quantifier": "all picks, traveltimes, marginal windows and fractions", "why_tests_cant": "All reals.", "anchors": ["quakemigrate/signal/local_mag/amplitude.py:Amplitude._get_amplitude_windows", "quakemigrate/signal/local_mag/amplitude.py:Amplitude._get_picks"]}
{"id": "C62", "title": "The measured amplitude is half the largest adjacent peak-to-trough swing", "statement": "If peaks and troughs alternate, the reported amplitude is half the maximum over adjacent peak/trough pairs; a failure is raised iff there is no peak or no trough or the counts show consecutive peaks/troughs.", "quantifier": "all alternating peak/trough sequences of any length", "why_tests_cant": "All lengths and orders.", "anchors": ["quakemigrate/signal/local_mag/amplitude.py:Amplitude._peak_to_trough_amplitude"]}
{"id": "C63", "title": "The network magnitude lies between the station magnitudes", "statement": "The mean magnitude lies between the smallest and largest used station magnitude, shifts by c when all are shifted by c, and does not depend on the order of observations; the reported error is the (weighted) standard deviation.", "quantifier": "all non-empty observation lists, weighted and unweighted", "why_tests_cant": "All lists.", "anchors": ["quakemigrate/signal/local_mag/magnitude.py:Magnitude.mean_magnitude"]}
{"id": "C64", "title": "Only observations passing every configured filter contribute, and the magnitude is defined if one does", "statement": "An observation is used iff it has non-null signal and noise amplitude and passes every configured filter; if at least one is used, the network magnitude is a number.", "quantifier": "all observation tables and filter configurations", "why_tests_cant": "All tables.", "anchors": ["quakemigrate/signal/local_mag/magnitude.py:Magnitude._filter_mags", "quakemigrate/signal/local_mag/magnitude.py:Magnitude.calculate_magnitudes", "quakemigrate/signal/local_mag/magnitude.py:Magnitude.mean_magnitude"]}
{"id": "C65", "title": "The r-squared statistic is at most one, equals one only for a perfect fit, and honours its noise selection", "statement": "r2 <= 1 always, with equality iff the model reproduces every log amplitude; it is undefined iff fewer than two or only equal amplitudes remain; with r2_only_used off, unpicked-noise observations whose predicted amplitude is below five times the noise are excluded.", "quantifier": "all observation tables", "why_tests_cant": "All tables.", "anchors": ["quakemigrate/signal/local_mag/magnitude.py:Magnitude._mag_r_squared"]}
{"id": "C66", "title": "The padding read for amplitudes covers every measurement window", "statement": "The noise window and both signal windows of every station lie inside the waveform window that was read, for modelled and for automatic picks.", "quantifier": "all picks allowed by the picker, traveltimes, fractions and windows", "why_tests_cant": "All reals.", "anchors": ["quakemigrate/signal/local_mag/amplitude.py:Amplitude.pad", "quakemigrate/signal/local_mag/amplitude.py:Amplitude._get_amplitude_windows", "quakemigrate/signal/local_mag/amplitude.py:Amplitude._measure_noise_amp"]}
{"id": "C67", "title": "Availability survives the round trip to disk", "statement": "Writing the availability table and reading it back over the same period returns every row once, in time order, with unchanged values; a later write for a day replaces that day and no other.", "quantifier": "all availability tables and histories of writes", "why_tests_cant": "All histories.", "anchors": ["quakemigrate/io/availability.py:write_availability", "quakemigrate/io/availability.py:read_availability"]}
{"id": "C68", "title": "Old-style availability files convert without loss", "statement": "An old-style file (one column per station) is read as one column per station and phase carrying the station's value; a new-style file is returned unchanged.", "quantifier": "all column sets and values", "why_tests_cant": "All column sets.", "anchors": ["quakemigrate/io/availability.py:_handle_old_structure"]}
{"id": "C69", "title": "Each exported station carries its own network code", "statement": "snuffler_stations writes, for every station, that station's own network code (or the code passed by the caller).", "quantifier": "all station tables", "why_tests_cant": "All tables of two or more networks.", "anchors": ["quakemigrate/export/to_snuffler.py:snuffler_stations"]}
{"id": "C70", "title": "Every exported pick corresponds to a row of the picks file", "statement": "The exported event has one modelled pick per row of the picks file and one automatic pick per row with an actual pick, in order, at the recorded times.", "quantifier": "all picks files", "why_tests_cant": "All tables.", "anchors": ["quakemigrate/export/to_obspy.py:_read_single_event"]}
{"id": "C71", "title": "After a trigger run each day's file holds that run's events", "statement": "After trigger(start, end) completes, the triggered-events file of every day in the period holds exactly the events this run found for the day, and the files of other days are untouched.", "quantifier": "all earlier contents of the run directory, all batches and all results of each", "why_tests_cant": "The failure needs a directory with earlier results and a day without candidates.", "anchors": ["quakemigrate/signal/trigger.py:Trigger._trigger_batch", "quakemigrate/io/triggered_events.py:write_triggered_events"]}
{"id": "C72", "title": "Triggering different periods in separate calls keeps the events of both", "statement": "Calling trigger for two disjoint periods one after the other leaves the events of both in the run directory.", "quantifier": "all pairs of runs", "why_tests_cant": "Holds for periods on different days and fails for two parts of one day; only histories of calls show it.", "anchors": ["quakemigrate/signal/trigger.py:Trigger._trigger_batch", "quakemigrate/io/triggered_events.py:write_triggered_events"]}
{"id": "C73", "title": "Scan output is also kept when the start time is off the sample grid", "statement": "For a detect run starting at a time that is not a whole number of samples after midnight, the day files still contain every appended sample when the run ends.", "quantifier": "all start times and block sequences", "why_tests_cant": "Data loss appears only for particular sub-sample offsets and block boundaries at midnight.", "anchors": ["quakemigrate/io/scanmseed.py:ScanmSEED.append", "quakemigrate/io/scanmseed.py:ScanmSEED.write"]}
{"id": "C74", "title": "Waveform data read for an event cover the requested cut and magnitude padding", "statement": "Wherever the origin time found for an event lies in the marginal window around its trigger time, the span of waveform data read for the event covers the requested pre_cut before and post_cut after the origin time, and the padding asked for by the magnitude calculation.", "quantifier": "all trigger times, origin times, marginal windows, scan pads, cuts and magnitude pads", "why_tests_cant": "The margins are combined with max and subtraction; the worst case is an origin time at the edge of the marginal window.", "anchors": ["quakemigrate/signal/scan.py:QuakeScan._read_event_waveform_data", "quakemigrate/signal/scan.py:QuakeScan._locate_events"]}
{"id": "C75", "title": "Pick windows that do not overlap are left alone", "statement": "The phase pick windows of one station are only adjusted where they overlap: windows that lie inside the onset function and do not overlap one another are used unchanged.", "quantifier": "all sets of windows of a station with ordered arrivals", "why_tests_cant": "The adjustment is to the midpoint of the arrivals, so the outcome depends on all widths and distances.", "anchors": ["quakemigrate/signal/pickers/gaussian.py:GaussianPicker._distinguish_windows"]}
{"id": "C76", "title": "One row of picks per onset function, with a bounded residual", "statement": "The picks of an event have exactly one row per station and phase with an onset function, in order; the modelled time is origin time plus traveltime, the residual is pick minus modelled time, and no residual reaches the search window (marginal window plus fraction of the traveltime) plus one sample.", "quantifier": "all events, stations, phases, onset functions, traveltimes and curve-fit results", "why_tests_cant": "The curve fit may return anything; the bound comes from the interplay of the rounding to samples, the window adjustment and the acceptance test.", "anchors": ["quakemigrate/signal/pickers/gaussian.py:GaussianPicker.pick_phases", "quakemigrate/signal/pickers/gaussian.py:GaussianPicker._fit_gaussian"]}
{"id": "C77", "title": "Only files of the selected stations and of days of the window are read from the archive", "statement": "In every named archive format, a file is read exactly if it belongs to a selected station and to a calendar day touched by the window.", "quantifier": "all archive formats, archives, station lists and windows", "why_tests_cant": "Depends on every pair of station names and days matched by a glob pattern.", "anchors": ["quakemigrate/io/data.py:Archive.path_structure", "quakemigrate/io/data.py:Archive._load_from_path"]}
{"id": "C78", "title": "Snuffler markers are at the time of the pick", "statement": "The time written to a Snuffler marker file, read back, is the time of the pick (to the microsecond).", "quantifier": "all pick times", "why_tests_cant": "Every value of the sub-second part.", "anchors": ["quakemigrate/export/to_snuffler.py:snuffler_markers"]}
{"id": "C79", "title": "SAC files for MFAST carry the arrival of each phase", "statement": "The P and S header times of a SAC file written for MFAST are the picked time of that phase at the station if it was picked and the modelled time otherwise.", "quantifier": "all tables of picks and all stations", "why_tests_cant": "All tables, orders of rows and combinations of picked and unpicked phases.", "anchors": ["quakemigrate/export/to_mfast.py:sac_mfast"]}
{"id": "C80", "title": "SAC files for MFAST carry the station elevation in metres", "statement": "The station elevation in the header of a SAC file written for MFAST is the elevation of the station in metres, positive up.", "quantifier": "all stations and both units of the lookup table", "why_tests_cant": "Sign and unit depend on the conventions of three modules.", "anchors": ["quakemigrate/export/to_mfast.py:sac_mfast", "quakemigrate/io/core.py:read_stations"]}
{"id": "C81", "title": "Documented attenuation functions are accepted", "statement": "Every attenuation function name listed in the documentation is accepted, and whether a name is accepted does not depend on the distances.", "quantifier": "all names and distances", "why_tests_cant": "Acceptance must hold for every distance and the rejected names are all other strings.", "anchors": ["quakemigrate/signal/local_mag/magnitude.py:Magnitude._logA0"]}
{"id": "C82", "title": "Attenuation grows with distance", "statement": "For a built-in attenuation function the same amplitude gives a larger magnitude at a larger distance, and the scale is anchored (1 mm at 100 km is magnitude 3 for Hutton-Boore, 1 mm at 17 km magnitude 2 for the others except UK).", "quantifier": "all pairs of positive distances and all built-in functions", "why_tests_cant": "All reals.", "anchors": ["quakemigrate/signal/local_mag/magnitude.py:Magnitude._logA0"]}
{"id": "C83", "title": "An amplitude measurement fails only for want of a peak or a trough", "statement": "For every window of data and every prominence multiplier, the peak-to-trough measurement is half the largest difference between neighbouring extrema kept by the multiplier, or fails because there is no peak or no trough to measure.", "quantifier": "all windows of data, sample intervals and prominence multipliers", "why_tests_cant": "Depends on the order and heights of all local maxima and minima of arbitrary data.", "anchors": ["quakemigrate/signal/local_mag/amplitude.py:Amplitude._peak_to_trough_amplitude"]}
{"id": "C84", "title": "The amplitude table has three rows per station, measured with its own traveltimes", "statement": "The table of amplitudes has one row for each of the E, N and Z components of each station of the lookup table, in order; a row is measured on that station's trace, in the windows given by that station's picks and traveltimes, and is left empty if the trace is missing, incomplete, has no response or its picks are out of order. No station makes the calculation fail for the others.", "quantifier": "all station tables, traveltimes, picks, waveforms and amplitude options", "why_tests_cant": "All station tables, including those filtered, sorted or joined by the user, and all combinations of missing data.", "anchors": ["quakemigrate/signal/local_mag/amplitude.py:Amplitude.get_amplitudes", "quakemigrate/signal/local_mag/amplitude.py:Amplitude._get_amplitude_windows", "quakemigrate/signal/local_mag/amplitude.py:Amplitude._measure_signal_amps"]}
{"id": "C85", "title": "A filter without its frequencies is refused", "statement": "Creating an Amplitude object with a highpass or bandpass filter whose frequencies are not given, or with both filters, raises an AttributeError; every other choice of filter is accepted.", "quantifier": "all combinations of filter options", "why_tests_cant": "All combinations of given and missing options.", "anchors": ["quakemigrate/signal/local_mag/amplitude.py:Amplitude"]}
{"id": "C86", "title": "Waveform data read from the archive is neither lost, invented nor duplicated", "statement": "For every channel of one sampling rate, whose records are timestamped on-sample, every sample recorded in the files for a selected station within the requested window is in the waveforms returned, whatever the split over files and records; everything returned was recorded, and lies at most half a sample outside the window; overlapping records that agree are returned once, as one trace, and separate traces of a channel are separated by gaps. The raw waveforms have the same property for the padded window and all stations. A data gap is reported only if there is no such sample.", "quantifier": "all archives, splits into files and records, overlaps, gaps, windows, pads and station lists", "why_tests_cant": "All overlaps and gaps between any number of records in any order, and all alignments of the window with the samples.", "anchors": ["quakemigrate/io/data.py:Archive.read_waveform_data", "quakemigrate/util.py:merge_stream"]}
{"id": "C87", "title": "Channels are read independently of one another", "statement": "What is returned for a channel depends only on the records of that channel: unreadable files and channels that cannot be merged do not affect others, and the iteration order of the set of channel names only permutes the result.", "quantifier": "all archives, channels and orders of iteration", "why_tests_cant": "Python's set order varies from run to run; all combinations of faulty channels.", "anchors": ["quakemigrate/util.py:merge_stream", "quakemigrate/io/data.py:Archive.read_waveform_data"]}
{"id": "C88", "title": "Reading waveforms raises the documented exceptions", "statement": "Reading waveforms raises ArchiveEmptyException exactly if no files are found for the days of the window and DataAvailabilityException if there is no data for the selected stations in the window.", "quantifier": "all archives and windows", "why_tests_cant": "All ways of having no data: no files, unreadable files, other stations, gaps.", "anchors": ["quakemigrate/io/data.py:Archive.read_waveform_data"]}
{"id": "C89", "title": "The event file gives every result, to the stated precision", "statement": "The .event file of a located event has exactly the documented columns, with ML, ML_Err and ML_r2 added if and only if a magnitude was calculated (even a NaN one). It names the event and its time, and shows locations to within 1/200 of the node spacing and half a millionth of a coordinate unit (half a metre in depth), uncertainties to within half a metre, coalescence values to four and magnitudes to three significant digits; values that are not finite stay so.", "quantifier": "all location results, magnitudes, grid spacings and units", "why_tests_cant": "Rounding of arbitrary values for arbitrary spacings.", "anchors": ["quakemigrate/io/event.py:Event.write", "quakemigrate/lut/lut.py:LUT.precision"]}
{"id": "C90", "title": "Every located event is written", "statement": "An .event file is written for every event that has been located, whether or not the Gaussian fit or the uncertainties are finite.", "quantifier": "all location results, grid spacings and units", "why_tests_cant": "Depends on non-finite fits, which arise for rare shapes of the coalescence only.", "anchors": ["quakemigrate/io/event.py:Event.write"]}
{"id": "C91", "title": "Output files of different runs, events, days and kinds never overwrite one another", "statement": "Two outputs written below the same directory - event, pick, amplitude, coalescence-map and cut-waveform files of an event, triggered events, coalescence and availability of a day - have the same path only if they are the same output of the same run (and subrun, except for detect, whose files all subruns share).", "quantifier": "all run names, subnames, event identifiers, days and kinds of output", "why_tests_cant": "All strings.", "anchors": ["quakemigrate/io/core.py:Run", "quakemigrate/io/event.py:Event.write", "quakemigrate/io/cut_waveforms.py:write_waveforms", "quakemigrate/io/triggered_events.py:write_triggered_events", "quakemigrate/io/scanmseed.py:ScanmSEED.write", "quakemigrate/io/availability.py:write_availability"]}
{"id": "C92", "title": "A station magnitude is the log amplitude plus attenuation plus correction, and its error covers the noise", "statement": "An observation gets a magnitude exactly if its amplitude is given, positive and not below the noise (divided by the filter gain if a filter was used), and its distance is given and not zero. The magnitude is log10 of the amplitude plus the attenuation at that distance plus the station's correction; ten times the amplitude is one unit more; if the amplitude is wrong by at most the noise, the magnitude is wrong by at most its error.", "quantifier": "all amplitude tables, distances, corrections and attenuation functions", "why_tests_cant": "All tables, with all combinations of missing values.", "anchors": ["quakemigrate/signal/local_mag/magnitude.py:Magnitude.calculate_magnitudes", "quakemigrate/signal/local_mag/magnitude.py:Magnitude._calc_mags"]}
{"id": "C93", "title": "The corrected cut waveforms hold all data of the event in the units and window asked for", "statement": "The real and Wood-Anderson cut waveform files of an event hold every trace read for the event that has data, is not flat and whose response can be removed, cut to the window asked for and in the units asked for; no file is written if there are none. Without a response inventory the request raises.", "quantifier": "all waveforms, units, cuts, responses and with or without magnitudes", "why_tests_cant": "What a file holds depends on what earlier stages of the same event left behind; all combinations of settings and histories matter.", "anchors": ["quakemigrate/io/cut_waveforms.py:write_cut_waveforms", "quakemigrate/io/cut_waveforms.py:get_waveforms", "quakemigrate/io/data.py:WaveformData.get_real_waveform", "quakemigrate/io/data.py:WaveformData.get_wa_waveform", "quakemigrate/signal/scan.py:QuakeScan._locate_events"]}
{"id": "C94", "title": "The Gaussian fit recovers a Gaussian: location and one-sigma uncertainties", "statement": "If the coalescence around its maximum (less the mean of the map) is a 3-D Gaussian, the Gaussian location is its centre and the Gaussian uncertainties are its standard deviations along X, Y and Z.", "quantifier": "all grids, maps, centres, covariance matrices and windows", "why_tests_cant": "All Gaussians and grids; a few fits cannot tell a wrong factor or a wrong order from a bad fit.", "anchors": ["quakemigrate/signal/scan.py:QuakeScan._gaufit3d"]}
{"id": "C95", "title": "Traveltimes at a point are interpolated, and modelled arrivals are those of the hypocentre", "statement": "The traveltime served for a position in the grid is the table value at a node, lies between the values of the surrounding nodes elsewhere, and is exact for a linear table. The modelled arrival of an event at a station is the origin time plus the traveltime from its hypocentre.", "quantifier": "all grids with at least two nodes per axis, tables, positions and hypocentres", "why_tests_cant": "All positions relative to the nodes; tests that place events on nodes cannot see rounding.", "anchors": ["quakemigrate/lut/lut.py:LUT.traveltime_to", "quakemigrate/signal/pickers/gaussian.py:GaussianPicker.pick_phases", "quakemigrate/signal/local_mag/amplitude.py:Amplitude.get_amplitudes"]}
{"id": "C96", "title": "Homogeneous tables are distance over velocity; bad methods are refused", "statement": "compute_traveltimes with method homogeneous gives, for each phase and station, the straight-line distance from node to station over the velocity of that phase. So it is never negative, zero only at the station, and changes between nodes by at most the straight-path time. A missing velocity or velocity model is a TypeError, 3dfmm a NotImplementedError, any other method a ValueError.", "quantifier": "all grids, stations, phases, velocities and method names", "why_tests_cant": "All method names and phase lists.", "anchors": ["quakemigrate/lut/create_lut.py:compute_traveltimes", "quakemigrate/lut/create_lut.py:_compute_homogeneous"]}
{"id": "C97", "title": "A 1-D velocity model means the same to both solvers", "statement": "For a velocity model given in order of depth, the velocity used at any depth is linear between the given depths and constant beyond the ends; the fast-marching grid and the layers written for NonLinLoc (from the first depth on, whatever the units) describe the same velocity profile. With block_model the velocity of a row holds down to the next.", "quantifier": "all velocity models in order of depth, all depths, all unit conversions", "why_tests_cant": "All models and depths; a wrong gradient sign or an off-by-one layer is right at the depths given.", "anchors": ["quakemigrate/lut/create_lut.py:_compute_1d_fmm", "quakemigrate/lut/create_lut.py:_vmodel_string", "quakemigrate/lut/create_lut.py:_velocity_gradient"]}
{"id": "C98", "title": "Fast-marching tables start at the node nearest to the station", "statement": "With method 1dfmm, a velocity model without the phase's column and a station outside the grid corners are refused. Otherwise every station gets the eikonal solution whose source is a node no other node is nearer than along any axis, at most half a node away.", "quantifier": "all grids, corners, spacings, stations and velocity models", "why_tests_cant": "All station positions relative to nodes.", "anchors": ["quakemigrate/lut/create_lut.py:_compute_1d_fmm", "quakemigrate/lut/create_lut.py:_eikonal_fmm"]}
{"id": "C99", "title": "Computing tables with NonLinLoc does not touch other files", "statement": "compute_traveltimes with method 1dnlloc creates its working files and removes them afterwards; files of the user and grids kept from earlier runs are left as they were. With retain_nll_grids the grids stay.", "quantifier": "all contents of the working directory, phases, stations and failures of the programs", "why_tests_cant": "All directory contents before the call and all points of failure.", "anchors": ["quakemigrate/lut/create_lut.py:_compute_1d_nlloc", "quakemigrate/lut/create_lut.py:_write_control_file"]}
{"id": "C100", "title": "locate works on exactly the events asked for", "statement": "locate(start, end) locates exactly the triggered events inside the period (a midnight at its end excluded) and reports when its days have no trigger file; locate(trigger_file=f) locates exactly the events of f. Calls with neither are refused with RuntimeError, periods ending before they start with TimeSpanException, and a lone start or end time with RuntimeError; a period given with a file restricts the file.", "quantifier": "all periods, trigger files and combinations of arguments", "why_tests_cant": "All combinations of arguments and all contents of trigger files.", "anchors": ["quakemigrate/signal/scan.py:locate", "quakemigrate/io/triggered_events.py:read_triggered_events"]}
{"id": "C101", "title": "A scan works with its own padding and rate", "statement": "Whatever else happens in a session (other scans, onset objects, assignments), a scan reads data with the padding due to its own lookup table and the windows of its onset object, so every traveltime of its table fits into the data, and runs at the rate of its onset object.", "quantifier": "all sequences of constructions and assignments in a session", "why_tests_cant": "All histories of a session; objects are shared by reference.", "anchors": ["quakemigrate/signal/scan.py:QuakeScan.__init__", "quakemigrate/signal/onsets/stalta.py:post_pad", "quakemigrate/signal/onsets/base.py:Onset"]}
{"id": "C102", "title": "Settings given to a scan take effect", "statement": "Settings not given have the documented defaults; deprecated names of settings (time_step, n_cores, sampling_rate) mean the same as the new ones; assigning pre_pad or post_pad overrides the padding.", "quantifier": "all combinations of keyword arguments and all assigned values", "why_tests_cant": "All combinations of old and new names.", "anchors": ["quakemigrate/signal/scan.py:QuakeScan.__init__", "quakemigrate/signal/scan.py:sampling_rate", "quakemigrate/signal/onsets/stalta.py:pre_pad", "quakemigrate/signal/onsets/stalta.py:post_pad"]}
{"id": "C103", "title": "Tables read from NonLinLoc hold the stored traveltimes", "statement": "read_nlloc returns a lookup table on the grid of the headers with, for each station and phase, at each node the number stored for it in that station's and phase's file; missing or short files, files without a projection and files that do not share one grid are refused.", "quantifier": "all sets of stations and phases, grids, and contents of header and buffer files", "why_tests_cant": "All grids and buffers; an index order error is right on cubes with symmetric times.", "anchors": ["quakemigrate/lut/create_lut.py:read_nlloc", "quakemigrate/lut/create_lut.py:_read_nlloc"]}
{"id": "C104", "title": "The projection of a NonLinLoc grid is that of its header", "statement": "For SIMPLE, LAMBERT and TRANS_MERC headers the grid projection of the lookup table has the kind, origin, standard parallels, ellipsoid and rotation of the header, in kilometres.", "quantifier": "all transformation lines of header files", "why_tests_cant": "All origins, parallels, ellipsoids and rotations.", "anchors": ["quakemigrate/lut/create_lut.py:_read_nlloc"]}
{"id": "C105", "title": "Exporting a run gives exactly its located events", "statement": "After any sequence of locate runs into a run directory, each complete or stopped at any point, read_quakemigrate returns a catalogue with exactly one event for each event file written, an empty one if there is none; units other than km and m are refused.", "quantifier": "all histories of locate calls, crash points, directory listings, units and phases", "why_tests_cant": "All histories and crash points; the files of earlier runs remain in place.", "anchors": ["quakemigrate/export/to_obspy.py:read_quakemigrate", "quakemigrate/export/to_obspy.py:_read_single_event", "quakemigrate/signal/scan.py:_locate_events", "quakemigrate/signal/local_mag/local_mag.py:calc_magnitude"]}
{"id": "C106", "title": "The parts of an exported event belong together", "statement": "The location, picks, amplitudes and magnitude of an exported event are those of one and the same location of the event.", "quantifier": "all histories of locate calls and crash points", "why_tests_cant": "All histories and crash points.", "anchors": ["quakemigrate/export/to_obspy.py:_read_single_event", "quakemigrate/signal/scan.py:_locate_events"]}
{"id": "C107", "title": "Exported locations and uncertainties do not depend on the units of the files", "statement": "Exported depths and their uncertainties are in metres, uncertainties of latitude and longitude are the horizontal ones in degrees, and the axes of the confidence ellipsoid are in order of length, whether the files are in km or in m.", "quantifier": "all event files, in km and in m", "why_tests_cant": "All latitudes and uncertainties.", "anchors": ["quakemigrate/export/to_obspy.py:_read_single_event"]}
{"id": "C108", "title": "The .amps and .picks files show every value to the stated digits", "statement": "The file of amplitudes has the rows and columns of the table, with distances and amplitudes to five significant digits, gains and magnitudes to three, frequencies to two, missing values missing and no sign changed; the file of picks has errors and signal-to-noise ratios to three. The magnitude of the event is calculated from the unrounded table. Rounding again changes nothing.", "quantifier": "all tables and values", "why_tests_cant": "All magnitudes of numbers, including those that round up to a power of ten.", "anchors": ["quakemigrate/io/amplitudes.py:write_amplitudes", "quakemigrate/signal/pickers/base.py:write"]}
{"id": "C109", "title": "Distances used for magnitudes are in kilometres", "statement": "Whether the lookup table and station file are in km or in m, the epicentral distance is that between event and station in km, and the vertical distance is the depth of the event below the station in km, station elevations being positive up.", "quantifier": "all events, stations, elevations and both units", "why_tests_cant": "All positions in both units; two sign changes have to cancel.", "anchors": ["quakemigrate/signal/local_mag/amplitude.py:_get_distances", "quakemigrate/io/core.py:read_stations"]}
{"id": "C110", "title": "Triggered events of neighbouring days are also separated", "statement": "Any two events reported by one trigger run, on the same day or on either side of a midnight, differ in time by more than the minimum event interval: no earthquake is reported once by each of two days.", "quantifier": "all scans, thresholds, pads, minimum event intervals, marginal windows, regions and trigger periods over any number of days", "why_tests_cant": "The days are triggered one at a time from overlapping data; whether the two decisions agree depends on every sample near the midnight.", "anchors": ["quakemigrate/signal/trigger.py:trigger", "quakemigrate/signal/trigger.py:_trigger_batch", "quakemigrate/signal/trigger.py:_refine_candidates", "quakemigrate/signal/trigger.py:_filter_events", "quakemigrate/io/scanmseed.py:read_scanmseed"]}
{"id": "C111", "title": "A period may be scanned in several calls", "statement": "Scanning a period in several detect calls into the same run leaves, for every day, the same scan data and station availability as one call over the whole period, whichever order the calls are made in, and calls that are stopped or killed do not damage what other calls left.", "quantifier": "all histories of detect calls with any start and end times, parameters, archive contents, exceptions and crash points", "why_tests_cant": "All histories and crash points; the result depends on which calls touch the same day.", "anchors": ["quakemigrate/signal/scan.py:detect", "quakemigrate/signal/scan.py:_continuous_compute", "quakemigrate/io/scanmseed.py:append", "quakemigrate/io/scanmseed.py:write", "quakemigrate/io/availability.py:write_availability"]}
{"id": "C112", "title": "An isolated burst of coalescence gives exactly one event", "statement": "If the coalescence is above the threshold for some time, and nothing else is above it within the minimum event interval plus the marginal window, a trigger run over any number of days reports exactly one event for it, at its largest sample and with its location, wherever the midnights fall; or none if that sample is outside the trigger region.", "quantifier": "all scans, bursts, static thresholds, pads at least as long as the burst, minimum event intervals, marginal windows, regions and trigger periods", "why_tests_cant": "Depends on where each burst falls with respect to the days, the pads and its neighbours, for every scan.", "anchors": ["quakemigrate/signal/trigger.py:trigger", "quakemigrate/signal/trigger.py:_trigger_batch", "quakemigrate/signal/trigger.py:_identify_candidates", "quakemigrate/signal/trigger.py:_refine_candidates", "quakemigrate/signal/trigger.py:_filter_events"]}
{"id": "C113", "title": "Detect followed by trigger reports every clear burst once", "statement": "Scanning a period into a new run and triggering it reports exactly one event for every burst of coalescence that is clearly above a static threshold and isolated, at the time, value and location of its largest sample to the precision of the scan files, whatever the timesteps, gaps in the archive and day boundaries.", "quantifier": "all archives and computed coalescence, timesteps, periods over any number of days, thresholds, pads, minimum event intervals, marginal windows and regions", "why_tests_cant": "The chain passes through timesteps, integer encoding, day files, padded reading and day batches; it must hold for every combination of their boundaries.", "anchors": ["quakemigrate/signal/scan.py:detect", "quakemigrate/io/scanmseed.py:append", "quakemigrate/io/scanmseed.py:write", "quakemigrate/io/scanmseed.py:read_scanmseed", "quakemigrate/signal/trigger.py:trigger"]}
{"id": "C114", "title": "What the scan reports for an instant", "statement": "For every sample of its period the scan reports the largest value over all grid nodes of the geometric mean, over the station-phase pairs with data, of the pair's own onset function (floored at 0.01) at the instant a wave leaving the node at that sample arrives; the ratio of this value to the mean over the grid; and the coordinates of the first node that attains it. The report for an instant does not depend on the number of threads, the start of the run or the length of the timesteps, and locate computes for the instants of its window what detect computed.", "quantifier": "all lookup tables, grids, station and phase lists, availabilities, onset functions, start times, timesteps, trigger times, marginal windows and thread schedules", "why_tests_cant": "The value passes through padding, station bookkeeping, traveltime rounding, a parallel stack and a parallel maximum; it must hold for every combination of sizes, availabilities and schedules.", "anchors": ["quakemigrate/signal/scan.py:_compute", "quakemigrate/signal/scan.py:_continuous_compute", "quakemigrate/signal/scan.py:_locate_events", "quakemigrate/core/lib.py:migrate", "quakemigrate/core/lib.py:find_max_coa", "quakemigrate/lut/lut.py:serve_traveltimes", "quakemigrate/lut/lut.py:index2coord"]}
{"id": "C115", "title": "Detect, trigger and locate: every clear burst is located once", "statement": "Run detect over a period, trigger over a part of it and locate from the triggered-events files that trigger wrote. Locate gets exactly the events trigger reported, in the same order; a burst of coalescence above the threshold that is isolated by the minimum event interval gets exactly one located event, with the origin time of the sample where the coalescence was largest; and no error ends the run.", "quantifier": "all detect runs, sampling rates, timesteps, thresholds, marginal windows, minimum event intervals, regions, trigger periods and day boundaries, and all coalescences", "why_tests_cant": "Three programs communicate through files written per day and per batch; that nothing is lost, doubled or moved between them must hold for every history and every position of the burst relative to timesteps, batches and midnights.", "anchors": ["quakemigrate/signal/scan.py:detect", "quakemigrate/signal/scan.py:locate", "quakemigrate/signal/scan.py:_locate_events", "quakemigrate/signal/trigger.py:trigger", "quakemigrate/io/triggered_events.py:write_triggered_events", "quakemigrate/io/triggered_events.py:read_triggered_events", "quakemigrate/io/event.py:Event.in_marginal_window"]}
{"id": "C116", "title": "A source at a grid node is found there", "statement": "If the onset function of every available station-phase pair is largest at the arrival of a wave that left one grid node at one instant, and no other node has the same traveltimes in samples up to a common shift, then detect reports that node at that instant, with the geometric mean of the peaks as coalescence, every other sample has a smaller coalescence, and the peak in locate's window is at that node and instant.", "quantifier": "all lookup tables, grids, station and phase lists, availabilities, onset functions with one strict maximum each, source nodes, origin times, start times, timesteps, trigger times within two marginal windows and thread schedules", "why_tests_cant": "A synthetic test places a few sources in one grid; the claim is about every node of every grid and every set of available pairs.", "anchors": ["quakemigrate/signal/scan.py:_compute", "quakemigrate/core/lib.py:migrate", "quakemigrate/core/lib.py:find_max_coa", "quakemigrate/lut/lut.py:serve_traveltimes", "quakemigrate/lut/lut.py:index2coord"]}
{"id": "C117", "title": "An earthquake gives exactly one event", "statement": "If the onset functions are those of an earthquake at a grid node, and the trigger value is clearly above the threshold (static, a multiple of the median, or the MAD) for a while around the origin time and below it for the rest of the period, then detect, trigger and locate run one after another report exactly one event: trigger gives it the origin time and the coordinates of the node to the precision of the files, and locate writes one event with this origin time.", "quantifier": "all lookup tables, grids, onset functions, source nodes, origin times, timesteps, start and end times, marginal windows, thresholds, regions, pads and thread schedules", "why_tests_cant": "A synthetic test runs one earthquake through the three stages; the claim composes all stages for every configuration and every position of the earthquake relative to timesteps, midnights and batches.", "anchors": ["quakemigrate/signal/scan.py:detect", "quakemigrate/signal/scan.py:locate", "quakemigrate/signal/scan.py:_compute", "quakemigrate/signal/trigger.py:trigger", "quakemigrate/io/scanmseed.py:ScanmSEED", "quakemigrate/io/event.py:add_compute_output"]}
{"id": "C118", "title": "A channel with all its samples is used", "statement": "With the full-timespan check on (the default), a channel whose data cover the whole window read by detect or locate, sample by sample, passes the availability check; a channel that lacks one or more of the samples does not.", "quantifier": "all windows, sampling rates, numbers of samples and timesteps; computed in double precision", "why_tests_cant": "The comparison depends on the rounding of one product; tests try a few window lengths, and most of these round the right way.", "anchors": ["quakemigrate/io/data.py:check_availability", "quakemigrate/signal/scan.py:_continuous_compute", "quakemigrate/signal/scan.py:_locate_events", "quakemigrate/io/archive.py:read_waveform_data", "quakemigrate/signal/onsets/stalta.py:STALTAOnset"]}
{"id": "C119", "title": "Pads are whole numbers of samples in double precision", "statement": "The pre- and post-pads added to the windows of detect and locate, computed in double precision, are whole numbers of samples.", "quantifier": "all pads and sampling rates; computed in double precision", "why_tests_cant": "Ceil, division and int() round in different directions; whether a millisecond is lost depends on the value.", "anchors": ["quakemigrate/util.py:trim2sample", "quakemigrate/signal/onsets/base.py:pad", "quakemigrate/signal/onsets/stalta.py:STALTAOnset"]}
{"id": "C120", "title": "Locate has one timestamp per coalescence sample", "statement": "The number of timestamps generated for the marginal window of an event equals the number of coalescence samples that the scan gives for it.", "quantifier": "all marginal windows and sampling rates; computed in double precision", "why_tests_cant": "The number is the integer part of a rounded product.", "anchors": ["quakemigrate/io/event.py:mw_times", "quakemigrate/signal/scan.py:_compute", "quakemigrate/util.py:time2sample"]}
{"id": "C121", "title": "The timesteps of detect follow one another without gap in double precision", "statement": "The starts and ends of the timesteps of detect, computed as start + timestep*i in double precision and rounded to nanoseconds, are exactly timestep*i after the start, so the timesteps neither overlap nor leave a gap, and their number is the least that covers the period.", "quantifier": "all starts, timesteps, counters, pads and sampling rates; computed in double precision", "why_tests_cant": "Rounding errors grow with the counter; a test runs few timesteps.", "anchors": ["quakemigrate/signal/scan.py:detect", "quakemigrate/signal/scan.py:_continuous_compute"]}
{"id": "C122", "title": "Smoothing of the coalescence is local, bounded and does not shift", "statement": "With smooth_coa set, every smoothed value lies between the least and the greatest value within the reach of the filter (truncate*sigma, to half a sample), a constant stays as it is, samples further away have no effect and closer ones count more, a trace run backwards gives the smoothed trace run backwards, and larger values never give smaller ones. An event of a static threshold has a sample at or above the threshold in the data within the reach of the filter.", "quantifier": "all traces, widths, truncations, sampling rates and positions, including both ends", "why_tests_cant": "The filter is reflected at both ends of each batch; tests look at a few traces.", "anchors": ["quakemigrate/signal/trigger.py:_smooth_coa", "quakemigrate/signal/trigger.py:_trigger_batch"]}
{"id": "C123", "title": "Smoothing of the location map is normalised and does not move a source", "statement": "The smoothing of the 3-D coalescence map before the Gaussian location gives values above 0 and at most 1, with 1 attained; it does not depend on the scale of the coalescence; a single bright node stays the unique peak after smoothing with the width the location uses; mirroring the map along an axis mirrors the smoothed map.", "quantifier": "all grid sizes along the three axes, positions of the source, amplitudes and widths of the filter", "why_tests_cant": "Whether the node stays the peak depends on the parity of the number of nodes along each axis and on the position of the source; tests use one grid.", "anchors": ["quakemigrate/signal/scan.py:_gaufilt3d", "quakemigrate/signal/scan.py:_calculate_location", "quakemigrate/util.py:gaussian_3d"]}
{"id": "C124", "title": "In double precision the onset is the ratio of the means, also after a glitch and in a gap", "statement": "Computed in double precision, the classic and centred onset functions give, at every sample, the ratio of the short-term to the long-term mean up to small rounding errors. Samples that have left both windows (a glitch, the data before a gap filled with tiny values) have no effect on the onset.", "quantifier": "all signals without negative values, all window lengths, all samples of the signal, every length of a gap", "why_tests_cant": "The C code updates two running sums over the whole timestep; rounding errors accumulate and depend on the whole history of the signal. Tests compare a few samples of well-scaled signals.", "anchors": ["quakemigrate/core/src/onsetlib.c:overlapping_sta_lta", "quakemigrate/core/src/onsetlib.c:centred_sta_lta", "quakemigrate/signal/onsets/stalta.py:calculate_onsets"]}
{"id": "C125", "title": "Gappy data are used if allow_gaps is set, and a gap gives no signal", "statement": "With allow_gaps=True a channel with gaps is used for the onset function. Every recorded sample enters at its own time, multiplied by the taper, missing samples are filled with a tiny value, the result has exactly the samples of the window, and where there are no data the onset function is about zero.", "quantifier": "all streams, all windows and sampling rates, all gaps, all orders of the traces", "why_tests_cant": "The combinations of gaps, missing starts and ends, options and window positions are unbounded; there are no tests of allow_gaps.", "anchors": ["quakemigrate/signal/onsets/stalta.py:calculate_onsets", "quakemigrate/io/data.py:check_availability"]}
{"id": "C126", "title": "A channel at an unusable rate does not stop the scan, and the filter asked for is applied", "statement": "Pre-processing fails only for a filter that does not fit the requested sampling rate or an upfactor that does not fit the data. A channel that cannot be brought to the requested rate is left out and does not affect the other channels or the run. Data at the requested rate are filtered with the band-pass filter asked for.", "quantifier": "all streams, all sampling rates of the channels, all filters and resampling settings, all timesteps of a run", "why_tests_cant": "Archives contain channels at any rate and they come and go; which combinations of rate, corner frequencies and settings raise depends on checks in three libraries.", "anchors": ["quakemigrate/signal/onsets/stalta.py:pre_process", "quakemigrate/util.py:resample", "quakemigrate/signal/scan.py:_continuous_compute"]}
{"id": "C127", "title": "Amplitudes are measured with the filter asked for, and its gain is removed", "statement": "Before amplitudes are measured, the band-pass or high-pass filter asked for is applied; if a channel is sampled too slowly for the band-pass filter, a high-pass filter with its low corner is applied instead. The gain removed from the amplitude is that of the filter applied. A slow channel does not stop the run.", "quantifier": "all sampling rates, all corner frequencies", "why_tests_cant": "The fall-back depends on the rate of each trace; tests use one rate.", "anchors": ["quakemigrate/signal/local_mag/amplitude.py:_filter_trace", "quakemigrate/signal/local_mag/amplitude.py:_bandpass_filter", "quakemigrate/signal/local_mag/amplitude.py:_highpass_filter"]}
{"id": "C128", "title": "The noise amplitude is the spread of the data about their trend", "statement": "The noise amplitude, in millimetres, is the root-mean-square (or standard deviation, or mean envelope) of the data of the noise window about the straight line that fits them best. It is NaN only if the window has no data or they are constant. It does not depend on an offset or a linear drift of the trace and scales with the data; RMS and STD are the same.", "quantifier": "all data of the window, all offsets, drifts and factors", "why_tests_cant": "The statement is about all real signals; a test can only compare a few.", "anchors": ["quakemigrate/signal/local_mag/amplitude.py:_measure_noise_amp", "quakemigrate/signal/local_mag/amplitude.py:_average_amplitude"]}
{"id": "C129", "title": "Converting an old lookup table keeps its contents", "statement": "update_lut writes a table in the new format that serves the same traveltimes for every station and phase, on the same grid and stations, with the same phases and fraction of the traveltime, as the table it was given, whether that was in the old or in the new format.", "quantifier": "all lookup tables, all sampling rates, all choices of stations and phases", "why_tests_cant": "The contents are arbitrary dictionaries; a test converts one table.", "anchors": ["quakemigrate/lut/__init__.py:update_lut", "quakemigrate/lut/lut.py:LUT.__getitem__", "quakemigrate/lut/lut.py:Grid3D.node_count", "quakemigrate/lut/lut.py:Grid3D.node_spacing"]}
{"id": "C130", "title": "The settings of an onset object are those it was given, and its own", "statement": "A new onset object has the position, filters and windows that were asked for, under the new or the old names, or the defaults. Constructing an object, or changing a setting of one, does not change another object or the dictionaries of the user. What is read under an old name is what was set.", "quantifier": "all arguments, all classes of STA/LTA onsets, all other objects of the session", "why_tests_cant": "Which objects share a dictionary depends on the history of the session.", "anchors": ["quakemigrate/signal/onsets/stalta.py:STALTAOnset.__init__", "quakemigrate/signal/onsets/stalta.py:STALTAOnset.p_bp_filter", "quakemigrate/signal/onsets/stalta.py:STALTAOnset.onset_centred", "quakemigrate/signal/onsets/stalta.py:CentredSTALTAOnset"]}
{"id": "C131", "title": "The SAC files for MFAST are complete, and their arrivals are at the times of the picks", "statement": "sac_mfast writes one file per component for every station with an S time. It holds the waveform of that station and component, and its arrivals and origin time, counted from the start of the waveform, are those of the event. A station that cannot be exported does not stop the others.", "quantifier": "all picks files, all cut waveform files, all orders of stations", "why_tests_cant": "Channel names, missing components and start times vary from station to station and event to event.", "anchors": ["quakemigrate/export/to_mfast.py:sac_mfast"]}
{"id": "C132", "title": "A NonLinLoc phase file gives the times of the picks", "statement": "Each line of the file has the station and phase of one pick of the kind asked for, and its date, hour, minute and seconds, read together, are the time of the pick to 0.05 ms. Its uncertainty is that of the pick to three digits, or -1 if there is none. There is one line for each such pick.", "quantifier": "all pick times and uncertainties, all picks files", "why_tests_cant": "Rounding at the end of a minute, hour or day: all times.", "anchors": ["quakemigrate/export/to_nlloc.py:nlloc_obs"]}
{"id": "C133", "title": "The settings given to a picker are those used for every event", "statement": "A picker picks every event with the threshold method, the threshold of that method and the search fraction that were set last, on the object or in its constructor, or with the defaults. A setting that cannot be used is refused when it is made.", "quantifier": "all constructor arguments, all later assignments in any order, all events", "why_tests_cant": "The threshold used depends on the history of assignments to the object.", "anchors": ["quakemigrate/signal/pickers/gaussian.py:GaussianPicker.__init__", "quakemigrate/signal/pickers/gaussian.py:GaussianPicker.fraction_tt", "quakemigrate/signal/pickers/gaussian.py:GaussianPicker.pick_threshold", "quakemigrate/signal/pickers/gaussian.py:GaussianPicker.pick_phases", "quakemigrate/signal/pickers/gaussian.py:GaussianPicker._find_pick_threshold"]}
{"id": "C134", "title": "The grid covers the region asked for, and its reported extent covers the grid", "statement": "Every point between the two geographical corners given for a grid belongs to the cell of one of its nodes, the one index2coord returns. The extent reported for the grid holds every node, and with cells=True every cell. The station extent is the smallest box round the stations, and the maximal extent holds stations and grid with a margin. Converting a node to geographical coordinates and back gives the node.", "quantifier": "all projections, corners, spacings, nodes and networks", "why_tests_cant": "Holds or fails depending on the projection and the region; no sample of corners settles it.", "anchors": ["quakemigrate/lut/lut.py:Grid3D.__init__", "quakemigrate/lut/lut.py:Grid3D.index2coord", "quakemigrate/lut/lut.py:Grid3D.get_grid_extent", "quakemigrate/lut/lut.py:LUT.max_extent", "quakemigrate/lut/lut.py:LUT.station_extent"]}
{"id": "C135", "title": "The summary plots show the components each phase was computed from", "statement": "The waveform panels of the pick summary and the event summary show, for each phase, the components named by its channel map and present at the station: all P components on the P panel, each S component on exactly one of the two S panels, the first letter code with the first number code and the second with the second. The plots can be made whenever the channel maps name the phases in use.", "quantifier": "all channel maps, all sets of components recorded at a station", "why_tests_cant": "Depends on the text of the channel map; the set of patterns users may write is unbounded.", "anchors": ["quakemigrate/util.py:get_phase_component_strings", "quakemigrate/plot/phase_picks.py:pick_summary", "quakemigrate/plot/event.py:event_summary", "quakemigrate/signal/onsets/stalta.py:STALTAOnset.channel_maps"]}
{"id": "C136", "title": "In double precision the coalescence is the geometric mean up to rounding", "statement": "With the rounding of double precision arithmetic after every operation, and for every order in which the threads run, each value of the coalescence map differs from the geometric mean of the delayed onset values by a relative error that depends only on the number of onset functions and the largest onset value; for up to ten thousand onset functions with values up to e^12 it is below 1e-10. The node reported as the maximum has an exact coalescence within that error of the largest, the maximum reported is its coalescence up to that error, and the normalised maximum is exact up to the rounding of the sum over the nodes.", "quantifier": "all onset functions, traveltime tables, grids, thread schedules and all roundings, logarithms and exponentials within the stated relative errors", "why_tests_cant": "The errors accumulate with the number of stations and nodes and depend on the order of operations; tests compare with a stored result of the same kernel.", "anchors": ["quakemigrate/core/lib.py:migrate", "quakemigrate/core/lib.py:find_max_coa", "quakemigrate/core/src/migratelib.c:migrate", "quakemigrate/core/src/migratelib.c:find_max_coa"]}
{"id": "C137", "title": "Longer trigger intervals only leave events out", "statement": "Rerunning trigger with a longer minimum event interval, a longer marginal window or both, and otherwise the same settings and scan, gives a subset of the events: each event of the new run has the same time, values and position as an event of the old run, they are in the same order, and both runs go through the same batches and end the same way.", "quantifier": "all scan data, threshold methods, smoothing, regions, runs of any number of batches and all pairs of intervals", "why_tests_cant": "Candidates are merged by comparing neighbouring windows that themselves depend on both intervals; a test compares two settings on one scan.", "anchors": ["quakemigrate/signal/trigger.py:Trigger._identify_candidates", "quakemigrate/signal/trigger.py:Trigger._refine_candidates", "quakemigrate/signal/trigger.py:Trigger._trigger_batch"]}
{"id": "C138", "title": "A higher detection threshold only leaves events out", "statement": "Rerunning trigger on the same scan with a higher threshold gives a subset of the events found with the lower threshold, and keeps every event whose value is above the new threshold.", "quantifier": "all scan data and all pairs of thresholds", "why_tests_cant": "Runs of samples above the threshold split in any number of ways when the threshold rises, and merging depends on the windows of the parts.", "anchors": ["quakemigrate/signal/trigger.py:Trigger._identify_candidates", "quakemigrate/signal/trigger.py:Trigger._refine_candidates", "quakemigrate/signal/trigger.py:Trigger.detection_threshold"]}
{"id": "C139", "title": "The order of stations and phases does not matter", "statement": "Listing the stations and phases in another order, in the run or in the traveltime table, changes no coalescence value, normalised value or position that detect reports for an instant.", "quantifier": "all traveltime tables, onset functions, availabilities, permutations of stations and phases, timesteps and thread schedules", "why_tests_cant": "There are factorially many orders, and the order decides which row of the onset array is paired with which traveltimes.", "anchors": ["quakemigrate/signal/scan.py:QuakeScan._compute", "quakemigrate/lut/lut.py:LUT.serve_traveltimes", "quakemigrate/signal/onsets/base.py:OnsetData", "quakemigrate/core/lib.py:migrate"]}
{"id": "C140", "title": "A station that records nothing does not move the location", "statement": "Adding onset functions that have the same value at all times leaves the position that detect reports for every instant unchanged; the coalescence becomes the geometric mean that includes the constant values.", "quantifier": "all traveltime tables, onset functions, numbers of added constant onset functions, timesteps and thread schedules", "why_tests_cant": "It is a statement about all grids and all sets of stations at once; a test covers one.", "anchors": ["quakemigrate/signal/scan.py:QuakeScan._compute", "quakemigrate/core/lib.py:migrate", "quakemigrate/core/lib.py:find_max_coa"]}
{"id": "C141", "title": "The location explains most arrivals in spite of noise", "statement": "If the N onset functions are at least A at the arrivals of an earthquake, never above C, and at most B further than a tolerance from the arrivals, then the largest coalescence of the timestep or event window that contains the origin time is at a grid node and time that match the arrivals within the tolerance for all but k of the onset functions, where A^N <= B^k C^(N-k). In particular all arrivals are matched if B C^(N-1) < A^N.", "quantifier": "all traveltime tables, onset functions with any noise within the bounds, source nodes, origin times, tolerances, timesteps and thread schedules", "why_tests_cant": "The noise is arbitrary within its bounds, and every wrong node and time has to be excluded.", "anchors": ["quakemigrate/signal/scan.py:QuakeScan._compute", "quakemigrate/core/lib.py:migrate", "quakemigrate/core/lib.py:find_max_coa"]}
{"id": "C142", "title": "An earthquake in noise gives exactly one event, which explains its arrivals", "statement": "If the onset functions are those of an earthquake with bounded noise, and the coalescence is clearly above the trigger threshold for a while and below it for the rest of the period, then detect, trigger and locate report exactly one event, and its time and place match the arrivals within the tolerance for all but k of the N onset functions, where A^N <= B^k C^(N-k) for onset values of at least A at the arrivals, at most B further than the tolerance from them, and at most C.", "quantifier": "all traveltime tables, noise within the bounds, source nodes, origin times, scan and trigger settings, files and thread schedules", "why_tests_cant": "It joins the scan, its files, the trigger and the locate stage for arbitrary noise; tests run the stages one by one on one data set.", "anchors": ["quakemigrate/signal/scan.py:QuakeScan.detect", "quakemigrate/signal/trigger.py:Trigger.trigger", "quakemigrate/signal/scan.py:QuakeScan.locate", "quakemigrate/core/lib.py:migrate"]}
{"id": "C143", "title": "An interrupted locate run can be completed by running it again", "statement": "If locate stops at any point, any number of times, running it again over the same events to the end leaves the run directory exactly as one uninterrupted call would have; so does running it over only the events from the interrupted one on, or over parts of the period in separate calls in any order, provided locating an event again gives the same results.", "quantifier": "all lists of located events, all points between two writes at which the calls stop, any number of calls in any order", "why_tests_cant": "It ranges over crash points and histories of calls; no test interrupts locate or runs it twice.", "anchors": ["quakemigrate/signal/scan.py:QuakeScan._locate_events", "quakemigrate/io/event.py:Event.write", "quakemigrate/signal/pickers/base.py:PhasePicker.write"]}
{"id": "C144", "title": "A large event does not hide itself from a threshold that follows the data", "statement": "With the MAD or median-ratio threshold, a burst of coalescence shorter than half a threshold window is triggered however large it is, if it exceeds a level set by the background alone; with the median ratio and a background below it, or with the MAD and a background spread out enough for the multiplier, it gives exactly one event.", "quantifier": "all coalescence records, bursts of any size, window lengths, multipliers, trigger settings", "why_tests_cant": "It ranges over all values of the burst and over all positions of burst and windows; a test has one record.", "anchors": ["quakemigrate/signal/trigger.py:Trigger._get_threshold", "quakemigrate/signal/trigger.py:Trigger.trigger", "quakemigrate/util.py:calculate_mad"]}
{"id": "C145", "title": "No event is triggered where there are no data", "statement": "trigger reports no event at a time for which detect found no data.", "quantifier": "all detect calls and patterns of data gaps, threshold methods, trigger settings and periods", "why_tests_cant": "Gaps can be anywhere with respect to the threshold windows; the tests have no gaps.", "anchors": ["quakemigrate/signal/scan.py:QuakeScan._continuous_compute", "quakemigrate/io/scanmseed.py:ScanmSEED.empty", "quakemigrate/signal/trigger.py:Trigger._get_threshold", "quakemigrate/signal/trigger.py:Trigger._identify_candidates"]}
{"id": "C146", "title": "The trigger summary shows the stations that were available", "statement": "The availability panel of the trigger summary shows, for every step of detect, the number of stations that were available (for each phase, or in all if the phases do not differ), and the map shows every station, or with plot_all_stns off exactly those available at some time.", "quantifier": "all availability tables: stations, phases, steps, values and missing values", "why_tests_cant": "It ranges over all tables and numbers of phases; there are no tests of the figures.", "anchors": ["quakemigrate/plot/trigger.py:_plot_station_availability", "quakemigrate/plot/trigger.py:trigger_summary"]}
{"id": "C147", "title": "The event summary shows the location and its uncertainty", "statement": "The longitude, latitude, depth and location uncertainty written in the event summary figure are those of the event, in the units stated, to a small fraction of the node spacing.", "quantifier": "all locations, uncertainties, node spacings and units of the grid", "why_tests_cant": "Rounding depends on the spacing and units together; no test looks at the figure.", "anchors": ["quakemigrate/plot/event.py:_plot_text_summary", "quakemigrate/lut/lut.py:LUT.precision", "quakemigrate/lut/lut.py:LUT.unit_conversion_factor"]}
{"id": "C148", "title": "The waveform gather gives each station its own row, in order of arrival", "statement": "In the event summary every station has a row of its own, stations with earlier arrivals are above those with later ones, and waveforms do not run into other rows before one and a half times the largest traveltime.", "quantifier": "all arrival times (also equal ones), orders of equal times, waveforms", "why_tests_cant": "Any number of stations in any order, with ties resolved in any way by the sort.", "anchors": ["quakemigrate/plot/event.py:_plot_waveform_gather"]}
{"id": "C149", "title": "The amplitude figure agrees with the magnitudes", "statement": "In the figure of amplitude against distance every observation with a signal and a noise amplitude has a cross at its distance, marked as used exactly if it contributes to the network magnitude; the full curve is that of the network magnitude and the dashed curves those of the magnitude less and plus its error. A cross is below, on or above the full curve according as its magnitude is less than, equal to or greater than the network magnitude, and between the dashed curves exactly if it differs by no more than the error; the used observations and the full curve are inside the axes.", "quantifier": "all tables of amplitudes, station corrections, attenuation curves, multipliers and filters", "why_tests_cant": "It relates every cross to the magnitude of the same observation through corrections and attenuation; there are no tests of the figures.", "anchors": ["quakemigrate/plot/amplitudes.py:amplitudes_summary", "quakemigrate/signal/local_mag/magnitude.py:Magnitude.plot_amplitudes", "quakemigrate/signal/local_mag/local_mag.py:LocalMag.calc_magnitude"]}
{"id": "C150", "title": "The amplitude figure names each station once", "statement": "In the figure of amplitude against distance every station with an observation is named exactly once, with the letters of its components.", "quantifier": "all lists of observations: stations, components, used and rejected", "why_tests_cant": "It ranges over all lists of observations in any order of stations.", "anchors": ["quakemigrate/plot/amplitudes.py:amplitudes_summary", "quakemigrate/plot/amplitudes.py:label_stations"]}
{"id": "C151", "title": "A magnitude that cannot be determined does not stop the run", "statement": "Switching on the amplitude figure does not change which events locate writes: an event whose network magnitude is not a number is written all the same, and so are the events after it.", "quantifier": "all tables of amplitudes, configurations and runs of locate over any number of events", "why_tests_cant": "The failure needs particular amplitudes or distances, and its effect is on the rest of the run.", "anchors": ["quakemigrate/signal/local_mag/local_mag.py:LocalMag.calc_magnitude", "quakemigrate/signal/local_mag/magnitude.py:Magnitude.plot_amplitudes", "quakemigrate/signal/scan.py:QuakeScan._locate_events"]}
{"id": "C152", "title": "The figure of a station's picks shows each phase with its own window and picks, and making it does not stop the run", "statement": "With pick figures switched on, the figure of a station shows, on the axes with a phase's onset function, the modelled arrival and the pick window of that phase and all the picks of the station; everything inside a pick window is inside the horizontal limits; and for every event of a locate run the figure of every station is made, so that events are written as they are without figures.", "quantifier": "all sampling rates, numbers of samples, phases and their windows, waveforms, picks; all settings of locate and origin times in the marginal window; all lists of triggered events", "why_tests_cant": "The limits, windows and axes depend on the number and names of phases and on windows cut at the end of the data, which only distant stations reach; a test draws a few near stations.", "anchors": ["quakemigrate/plot/phase_picks.py:pick_summary", "quakemigrate/signal/pickers/gaussian.py:GaussianPicker.plot", "quakemigrate/signal/pickers/gaussian.py:GaussianPicker._distinguish_windows", "quakemigrate/signal/scan.py:QuakeScan._locate_events"]}
{"id": "C153", "title": "The map and sections of the event summary cut the coalescence at its maximum and show each node where it is", "statement": "In the event summary, the map and both vertical sections are planes of the coalescence through one node at which it is largest; every cell has the value of its node and lies around the node's coordinates; the cross-hair is at the hypocentre; the ellipses are centred on the location and reach as far as its uncertainty on every axis.", "quantifier": "all grids, coalescence maps with any valid value, hypocentres, uncertainties and map projections", "why_tests_cant": "Slices are transposed and indexed by sums of axis numbers, and cells are placed by interpolation between projected corners; no test looks at the figure.", "anchors": ["quakemigrate/plot/event.py:event_summary", "quakemigrate/plot/event.py:_make_ellipses", "quakemigrate/lut/lut.py:LUT.plot", "quakemigrate/lut/lut.py:Grid3D.get_grid_extent"]}
{"id": "C154", "title": "Making event summaries does not change which events are located", "statement": "With event summaries switched on, locate writes the same events as without them: the figure of every event that is located can be made.", "quantifier": "all archives, lookup tables, station and phase names, availabilities, waveforms, sampling rates, origin times and lists of triggered events", "why_tests_cant": "The figure asks the lookup table for stations without data and splits names of unused stations; a test has one archive and one table that fit together.", "anchors": ["quakemigrate/plot/event.py:event_summary", "quakemigrate/plot/event.py:_plot_waveform_gather", "quakemigrate/lut/lut.py:LUT.traveltime_to", "quakemigrate/signal/scan.py:QuakeScan._locate_events"]}
{"id": "C155", "title": "A scan on a decimated lookup table samples the full scan", "statement": "At every instant, a scan with a decimated lookup table reports the largest of the coalescence values that the nodes it keeps have in the scan with the full table, so never more than the full scan; if the full scan's peak is at a node that is kept, the decimated scan reports the same coalescence at the same coordinates. The longest traveltime of the decimated table is never longer.", "quantifier": "all lookup tables, decimation factors, grids, onset functions, availabilities, start times, timesteps, instants and thread schedules", "why_tests_cant": "Needs every grid, factor and onset function at once, through padding, traveltime lookup, migration and the search for the peak; a test has one table.", "anchors": ["quakemigrate/lut/lut.py:Grid3D.decimate", "quakemigrate/lut/lut.py:LUT.serve_traveltimes", "quakemigrate/lut/lut.py:LUT.max_traveltime", "quakemigrate/signal/scan.py:QuakeScan._compute"]}
{"id": "C156", "title": "The trigger report determines the events", "statement": "Two trigger runs that log the same parameters find the same events (or end with the same exception) on the same scan data, period and region; the logged text states, under its label, each setting in use; and the legend of the threshold in the summary figure determines the threshold.", "quantifier": "all settings, threshold methods, ways of printing numbers that keep different numbers apart, scan data, periods and regions", "why_tests_cant": "Says that no setting that changes the events is left out of the log; a test compares the text of a few objects.", "anchors": ["quakemigrate/signal/trigger.py:Trigger.__str__", "quakemigrate/signal/trigger.py:Trigger.trigger", "quakemigrate/signal/trigger.py:Trigger._threshold_method_string"]}
{"id": "C157", "title": "The printed lookup table describes its grid", "statement": "Printing a lookup table shows the latitude, longitude and depth of its lower-left and upper-right corners, the number of nodes on each axis and their spacing.", "quantifier": "all grids, projections and units", "why_tests_cant": "A test prints one table and is likely to compare with what was printed before.", "anchors": ["quakemigrate/lut/lut.py:LUT.__str__", "quakemigrate/lut/lut.py:Grid3D.grid_corners"]}
{"id": "C158", "title": "The locate report determines picks, amplitudes and magnitudes", "statement": "Two locate runs that log the same picker, amplitude and magnitude parameters use the same settings: the picks are the same, amplitudes are measured with the same windows, noise measure, location, prominence and filter, and magnitudes are the same.", "quantifier": "all settings, ways of printing that keep different values apart, events, onsets and observations", "why_tests_cant": "Says that no setting that changes the results is left out of the log, over all pairs of settings.", "anchors": ["quakemigrate/signal/pickers/gaussian.py:GaussianPicker.__str__", "quakemigrate/signal/local_mag/amplitude.py:Amplitude.__str__", "quakemigrate/signal/local_mag/magnitude.py:Magnitude.__str__"]}
{"id": "C159", "title": "Triggering does not depend on the day", "statement": "If the scan data of a period occur again some whole number of days earlier or later, triggering that period gives the same batches and the same events at the shifted times, with the same windows, coordinates and coalescence, or ends with the same exception after the same batches.", "quantifier": "all scan data, periods, numbers of days, settings, threshold methods, smoothing kernels and regions", "why_tests_cant": "Quantifies over all scan data and all pairs of days; a test runs a fixed day.", "anchors": ["quakemigrate/signal/trigger.py:Trigger.trigger", "quakemigrate/signal/trigger.py:Trigger._trigger_batch", "quakemigrate/signal/trigger.py:Trigger._identify_candidates", "quakemigrate/signal/trigger.py:Trigger._refine_candidates", "quakemigrate/signal/trigger.py:Trigger._filter_events"]}
{"id": "C160", "title": "Dynamic thresholds make triggering independent of the scale of the coalescence", "statement": "With the MAD or median-ratio threshold, multiplying all coalescence values of the scan by a positive number changes nothing about the triggered events but their coalescence values, which are multiplied alike; with the MAD threshold the same holds when a constant is added. With a static threshold it holds when the threshold is multiplied along.", "quantifier": "all scan data, positive factors, constants, periods, settings, smoothing kernels and regions", "why_tests_cant": "A relation between two runs on arbitrary data through smoothing, chunked medians, run detection, merging and filtering.", "anchors": ["quakemigrate/signal/trigger.py:Trigger._get_threshold", "quakemigrate/signal/trigger.py:Trigger._smooth_coa", "quakemigrate/signal/trigger.py:Trigger._identify_candidates", "quakemigrate/signal/trigger.py:Trigger._refine_candidates"]}
{"id": "C161", "title": "Onset functions of a station do not depend on the other stations", "statement": "When onset functions are calculated for a set of stations without an exception, each station gets exactly the onset functions (and availability) it would get from its own data alone; a station none of whose phases is available raises DataAvailabilityException when processed alone. Hence two archives that agree on a station give it the same onset functions, whatever the other stations are and whatever fails there.", "quantifier": "all settings, archives, stations, phases, signal-processing functions that keep trace ids", "why_tests_cant": "A relation between runs on arbitrary archives; a test compares a few fixed sets of stations.", "anchors": ["quakemigrate/signal/onsets/stalta.py:STALTAOnset.calculate_onsets", "quakemigrate/signal/onsets/stalta.py:pre_process", "quakemigrate/signal/onsets/stalta.py:STALTAOnset._onset", "quakemigrate/io/data.py:WaveformData.check_availability", "quakemigrate/util.py:resample"]}
{"id": "C162", "title": "Onset functions do not depend on the units of the waveforms", "statement": "Multiplying the data of every channel by a non-zero number of its own (counts instead of volts, reversed polarity) changes neither the exceptions, nor the availability, nor the onset functions.", "quantifier": "all settings, archives, non-zero gains per channel, linear signal-processing functions", "why_tests_cant": "A relation between two runs for all data and all gains; fill values, clipping and availability checks could each break it.", "anchors": ["quakemigrate/signal/onsets/stalta.py:STALTAOnset.calculate_onsets", "quakemigrate/signal/onsets/stalta.py:pre_process", "quakemigrate/signal/onsets/stalta.py:STALTAOnset._onset", "quakemigrate/io/data.py:WaveformData.check_availability", "quakemigrate/util.py:resample"]}
{"id": "C163", "title": "A channel that fails its checks might as well be absent", "statement": "With all_channels off, if a channel contributes nothing to the waveforms used by the scan, removing it from the archive leaves availability, onset functions and used waveforms unchanged.", "quantifier": "all settings with all_channels off, archives, channels", "why_tests_cant": "Quantifies over all archives and all reasons for which a channel can fail.", "anchors": ["quakemigrate/signal/onsets/stalta.py:STALTAOnset.calculate_onsets", "quakemigrate/signal/onsets/stalta.py:pre_process", "quakemigrate/signal/onsets/stalta.py:STALTAOnset._onset", "quakemigrate/io/data.py:WaveformData.check_availability", "quakemigrate/util.py:resample"]}
{"id": "C164", "title": "The order in which waveform files are read does not matter", "statement": "If the traces of the archive are presented in another order, the calculation of onset functions raises the same exception or returns the same availability and the same onset functions in the same order.", "quantifier": "all settings, archives and permutations of the traces", "why_tests_cant": "Files may be listed in any order by the file system; a test reads one order.", "anchors": ["quakemigrate/signal/onsets/stalta.py:STALTAOnset.calculate_onsets", "quakemigrate/signal/onsets/stalta.py:pre_process", "quakemigrate/signal/onsets/stalta.py:STALTAOnset._onset", "quakemigrate/io/data.py:WaveformData.check_availability", "quakemigrate/util.py:resample"]}
{"id": "C165", "title": "Which onset functions are calculated, and their values", "statement": "When the calculation of onset functions returns, there is exactly one onset function for each phase and station at which the phase is available (phase by phase, stations in order), the availability says 1 for exactly these, and each value is the root-mean-square over the accepted channels of the STA/LTA ratio of the transformed data, with windows of round(seconds x rate) + 1 samples, clipped below at min_onset_value. With gap handling the recordings hold every sample at its own time, tapered, and the fill value elsewhere.", "quantifier": "all settings, archives, stations, phases, samples", "why_tests_cant": "End-to-end functional specification of a pipeline of selection, checks, merging, windowed averages and combination, over all data; tests compare single cases.", "anchors": ["quakemigrate/signal/onsets/stalta.py:STALTAOnset.calculate_onsets", "quakemigrate/signal/onsets/stalta.py:STALTAOnset._onset", "quakemigrate/io/data.py:WaveformData.check_availability"]}
{"id": "C166", "title": "Tapered data do not reach the coalescence", "statement": "The padding of every window is long enough for its tapers: however long the window and the traveltimes are, no sample in the tapered first or last 5 % of the data lies in the short or long window of an onset value that is migrated. Two recordings that differ only in tapered samples therefore give the same migrated onset values. When the onset functions are blanked at the ends, no value left unblanked depends on a tapered sample.", "quantifier": "all window settings, traveltimes, window lengths, sampling rates, samples and data", "why_tests_cant": "The padding is a percentage of a sum rounded up to seconds and to samples, and includes itself in the length tapered: whether it suffices must be shown for all combinations of settings.", "anchors": ["quakemigrate/signal/onsets/stalta.py:pre_process", "quakemigrate/signal/onsets/base.py:Onset.pad", "quakemigrate/signal/onsets/stalta.py:STALTAOnset.post_pad", "quakemigrate/signal/scan.py:QuakeScan._compute"]}
{"id": "C167", "title": "The log file of a stage holds its messages", "statement": "When logging is asked for, the log file of a stage holds exactly the messages of this stage at or above the level asked for, in order, whatever other stages are run in the same process; stages and starting times have their own files; the screen shows every message once.", "quantifier": "all sequences of stages and messages in a process, names, levels and earlier file contents", "why_tests_cant": "Depends on the history of the whole process, through the state of Python's logger.", "anchors": ["quakemigrate/util.py:logger", "quakemigrate/io/core.py:Run.logger", "quakemigrate/signal/trigger.py:Trigger.__init__", "quakemigrate/signal/scan.py:QuakeScan.detect", "quakemigrate/signal/scan.py:QuakeScan.locate"]}
{"id": "C168", "title": "Traveltimes from NonLinLoc are those of the node's own place, in double precision", "statement": "A node of the grid that coincides with a node of the table computed by NonLinLoc gets the traveltime stored there, and any other node gets the bilinear interpolation of the four entries around it, when the arithmetic is that of doubles and the origin and spacing of the table are read from its files.", "quantifier": "all tables, section origins, spacings, distances and depths", "why_tests_cant": "Depends on how floor and remainder round for every coordinate; a test at a few coordinates sees only whether those are affected.", "anchors": ["quakemigrate/lut/create_lut.py:_bilinear_interpolate", "quakemigrate/lut/create_lut.py:_grid_string", "quakemigrate/lut/create_lut.py:_compute_1d_nlloc", "quakemigrate/lut/create_lut.py:_read_nlloc"]}
{"id": "C169", "title": "What a scan computes is the coalescence of the waveforms", "statement": "From the waveforms of a window to the coalescence: where at least one phase of one station passes the quality criteria, the scan returns one value for each sample between the pads, and this value is the largest over the grid of the geometric mean, over exactly the available stations and phases, of the root-mean-square STA/LTA of their pre-processed channels, each read at the time at which a wave leaving the node at that sample arrives; with its ratio to the mean over the grid, and the place of the first node that has it. With nothing available the scan reports that and computes nothing.", "quantifier": "all waveforms, settings, lookup tables, windows, numbers of stations and orders of threads", "why_tests_cant": "The value depends on every step from the traces to the array passed to C, for each set of failing channels; a test compares one run with stored output.", "anchors": ["quakemigrate/signal/scan.py:QuakeScan._compute", "quakemigrate/signal/onsets/stalta.py:STALTAOnset.calculate_onsets", "quakemigrate/lut/lut.py:LUT.serve_traveltimes", "quakemigrate/core/lib.py:migrate"]}
{"id": "C170", "title": "Gain, polarity, units and order of the files do not change what a scan finds", "statement": "Multiplying the data of each channel by a factor of its own, or returning the traces in another order, changes neither the coalescence nor the locations nor the exceptions of a scan.", "quantifier": "all waveforms, factors, permutations, settings, lookup tables and orders of threads", "why_tests_cant": "A test scales one data set by one factor.", "anchors": ["quakemigrate/signal/scan.py:QuakeScan._compute", "quakemigrate/signal/onsets/stalta.py:STALTAOnset.calculate_onsets", "quakemigrate/lut/lut.py:LUT.serve_traveltimes", "quakemigrate/core/lib.py:migrate"]}
{"id": "C171", "title": "The grid covers the box asked for, in double precision", "statement": "Along each axis a grid has as many nodes as are needed to reach the upper corner and no more, the first at the lower corner, and the index of a node is recovered from its coordinates, when the arithmetic is that of doubles and corners and spacing are decimals.", "quantifier": "all corners, spacings and indices", "why_tests_cant": "Depends on how a difference, a quotient and a ceiling round for every corner and spacing; a test of a few grids sees only whether those are affected.", "anchors": ["quakemigrate/lut/lut.py:Grid3D.__init__", "quakemigrate/lut/lut.py:Grid3D.index2grid", "quakemigrate/lut/lut.py:Grid3D.node_count"]}
{"id": "C172", "title": "Detection does not depend on the day", "statement": "If an archive holds the same waveforms a whole number of days later, detecting over the span that is the same number of days later gives the same samples and availability, each that number of days later, or raises likewise.", "quantifier": "all archives, settings, spans and numbers of days, before or after", "why_tests_cant": "A test runs on one or two dates; that no step of reading, merging, trimming, checking and stacking looks at the date must hold for all of them.", "anchors": ["quakemigrate/signal/scan.py:QuakeScan.detect", "quakemigrate/signal/scan.py:QuakeScan._continuous_compute", "quakemigrate/signal/scan.py:QuakeScan._compute", "quakemigrate/io/data.py:Archive.read_waveform_data", "quakemigrate/io/data.py:Archive._load_from_path", "quakemigrate/util.py:merge_stream", "quakemigrate/util.py:shift_to_sample", "quakemigrate/signal/onsets/stalta.py:STALTAOnset.calculate_onsets"]}
{"id": "C173", "title": "The scan files hold the peaks of the coalescence of the archived waveforms", "statement": "After detect has completed, the scan files of the days scanned hold one value for every sample of every timestep at its time: the peak over the grid of the geometric mean of the STA/LTA onsets of the waveforms in the archive, shifted by the traveltimes, encoded as stored, or zeros where there was nothing to scan; and the availability files one row for every timestep that says at which stations each phase could be used. Files of other days are untouched.", "quantifier": "all archives, settings, spans and traveltime tables", "why_tests_cant": "Joins reading, pre-processing, onsets, migration, peak search, encoding and file writing; each is tested alone on one input, and the sample at which a value is stored depends on the rounding of all of them.", "anchors": ["quakemigrate/signal/scan.py:QuakeScan.detect", "quakemigrate/signal/scan.py:QuakeScan._continuous_compute", "quakemigrate/signal/scan.py:QuakeScan._compute", "quakemigrate/io/data.py:Archive.read_waveform_data", "quakemigrate/io/data.py:Archive._load_from_path", "quakemigrate/util.py:merge_stream", "quakemigrate/util.py:shift_to_sample", "quakemigrate/signal/onsets/stalta.py:STALTAOnset.calculate_onsets", "quakemigrate/io/scanmseed.py:ScanmSEED.append", "quakemigrate/io/scanmseed.py:ScanmSEED.write", "quakemigrate/core/src/quakemigrate.c:migrate", "quakemigrate/core/src/quakemigrate.c:find_max_coa"]}
{"id": "C174", "title": "Located events and their origin times follow from the archived waveforms", "statement": "locate writes exactly the triggered events for which the waveforms in the archive put the first maximum of the coalescence (over grid and time, from two marginal windows before the trigger time to two after) strictly within a marginal window of the trigger time, in their order, and the origin time written is the time of this maximum.", "quantifier": "all archives, settings, lists of triggered events and traveltime tables", "why_tests_cant": "Joins reading, pre-processing, onsets, migration, peak search and the choice of the origin time; which sample a value belongs to depends on the rounding of all of them.", "anchors": ["quakemigrate/signal/scan.py:QuakeScan.locate", "quakemigrate/signal/scan.py:QuakeScan._locate_events", "quakemigrate/signal/scan.py:QuakeScan._read_event_waveform_data", "quakemigrate/signal/scan.py:QuakeScan._compute", "quakemigrate/io/data.py:Archive.read_waveform_data", "quakemigrate/io/event.py:Event.add_compute_output", "quakemigrate/io/event.py:Event.in_marginal_window", "quakemigrate/io/event.py:Event.mw_times", "quakemigrate/signal/onsets/stalta.py:STALTAOnset.calculate_onsets"]}
{"id": "C175", "title": "Location does not depend on the day", "statement": "If an archive holds the same waveforms a whole number of days later, locating the same events triggered that number of days later writes the same events, with origin times that number of days later, or stops with an exception at the same event.", "quantifier": "all archives, settings, lists of triggered events and numbers of days, before or after", "why_tests_cant": "A test runs on one or two dates; that no step of reading, merging, trimming, checking, stacking and choosing the origin time looks at the date must hold for all of them.", "anchors": ["quakemigrate/signal/scan.py:QuakeScan.locate", "quakemigrate/signal/scan.py:QuakeScan._locate_events", "quakemigrate/signal/scan.py:QuakeScan._read_event_waveform_data", "quakemigrate/io/data.py:Archive.read_waveform_data", "quakemigrate/io/data.py:Archive._load_from_path", "quakemigrate/io/event.py:Event.add_compute_output", "quakemigrate/io/event.py:Event.trim2window", "quakemigrate/util.py:merge_stream"]}
{"id": "C176", "title": "What is read depends on the recorded samples alone", "statement": "For channels recorded at one rate, on sample and without contradictions, read_waveform_data returns exactly the samples in the files from half a sample before the window to half a sample after it, as traces that do not depend on how the samples are cut into files and records, on overlaps between them, on unreadable files, on the extra padding asked for, or on the order in which Python goes through a set. This needs that no record starts less than half a sample after the end of the window, which holds for every window that ends on a sample.", "quantifier": "all pairs of file collections, channels, rates, windows, extra pads and set orders", "why_tests_cant": "A test compares one archive cut in one way; that no way of cutting, repeating or ordering the records matters is a statement about all of them.", "anchors": ["quakemigrate/io/data.py:Archive.read_waveform_data", "quakemigrate/util.py:merge_stream"]}
{"id": "C177", "title": "Detection and location depend on the recorded samples alone", "statement": "For two archives with the same samples in the windows asked for, detect gives the same coalescence, availability and outcome, and locate writes the same events with the same origin times, whatever the files and records the samples are in, whatever is recorded outside the windows, and whatever padding for magnitudes (marginal extra data) and cut waveforms is asked for.", "quantifier": "all pairs of archives, settings, runs of detect, lists of triggered events, pads and cuts", "why_tests_cant": "The number of ways to cut the same samples into files cannot be enumerated, and a test of one run says nothing about other pads.", "anchors": ["quakemigrate/io/data.py:Archive.read_waveform_data", "quakemigrate/util.py:merge_stream", "quakemigrate/io/data.py:Archive._load_from_path", "quakemigrate/signal/scan.py:QuakeScan.detect", "quakemigrate/signal/scan.py:QuakeScan._continuous_compute", "quakemigrate/signal/scan.py:QuakeScan.locate", "quakemigrate/signal/scan.py:QuakeScan._read_event_waveform_data", "quakemigrate/signal/onsets/stalta.py:STALTAOnset.calculate_onsets"]}
{"id": "C178", "title": "From the archived waveforms to one located event", "statement": "If the coalescence of the waveforms in the archive is above the trigger threshold for a while around one sample, below it for the rest of the period and largest at one grid node at that sample, then detect followed by trigger reports exactly one event, at that sample and with the coordinates of the node up to what the files can store. locate over the same period then completes and writes at most one event: the triggered one, if the waveforms read for it place the first maximum of the coalescence strictly within a marginal window of the trigger time, with that maximum as origin time.", "quantifier": "all archives, stations, phases, lookup tables, onset settings, scan periods, timesteps, static thresholds, regions, pads, cuts and thread schedules", "why_tests_cant": "A test runs one archive with one earthquake; the claim is about all waveforms, grids and settings, through four stages and the files between them.", "anchors": ["quakemigrate/io/data.py:Archive.read_waveform_data", "quakemigrate/signal/scan.py:QuakeScan.detect", "quakemigrate/signal/scan.py:QuakeScan._continuous_compute", "quakemigrate/signal/scan.py:QuakeScan._compute", "quakemigrate/signal/onsets/stalta.py:STALTAOnset.calculate_onsets", "quakemigrate/signal/trigger.py:Trigger.trigger", "quakemigrate/signal/scan.py:QuakeScan.locate", "quakemigrate/signal/scan.py:QuakeScan._locate_events"]}
{"id": "C179", "title": "Gain and polarity of the archived channels do not matter", "statement": "If every sample of a channel is multiplied by one nonzero factor in all files of the archive, each channel by its own, then detect stores the same coalescence and the same availability, trigger reports the same events and locate writes the same events with the same origin times; calls are refused and exceptions end the run likewise.", "quantifier": "all archives, gains and polarities per channel, stations, onset settings, lookup tables, scan periods, trigger settings and thread schedules", "why_tests_cant": "A test rescales a few traces of one archive; the claim is about every archive, every set of factors and every setting, through reading, merging, filtering, onsets, migration, triggering and location.", "anchors": ["quakemigrate/io/data.py:Archive.read_waveform_data", "quakemigrate/signal/scan.py:QuakeScan.detect", "quakemigrate/signal/scan.py:QuakeScan.locate", "quakemigrate/signal/onsets/stalta.py:STALTAOnset.calculate_onsets", "quakemigrate/signal/onsets/stalta.py:sta_lta_centred", "quakemigrate/util.py:merge_stream"]}
{"id": "C180", "title": "Archived channels that no phase is computed from do not matter", "statement": "With corner frequencies below the Nyquist frequency, two archives that hold the same records of every channel matched by the channel map of some phase give the same result of detect (coalescence, availability, completion) and the same events and origin times of locate, whatever other channels, additional files or unreadable files one of them holds.", "quantifier": "all pairs of archives, channel maps, stations, onset settings, lookup tables, scan periods, lists of triggered events and orders in which sets are iterated", "why_tests_cant": "A test adds one channel to one archive; the claim is about every additional content of every archive, including archives in which nothing but unused channels is left in a window.", "anchors": ["quakemigrate/io/data.py:Archive.read_waveform_data", "quakemigrate/signal/scan.py:QuakeScan.detect", "quakemigrate/signal/scan.py:QuakeScan.locate", "quakemigrate/signal/onsets/stalta.py:STALTAOnset.calculate_onsets", "quakemigrate/util.py:merge_stream"]}
{"id": "C181", "title": "A station without any data in the archive changes nothing", "statement": "For station and phase names without underscores, taking stations that have no record in the archive out of the list of stations leaves the result of detect (coalescence, availability in every column, completion) and the events and origin times of locate unchanged. While a station with an underscore in its name is listed, with data or without, no timestep gives any coalescence.", "quantifier": "all archives, sets of silent stations, lookup tables, onset settings, scan periods, time steps and lists of triggered events", "why_tests_cant": "A test removes one station from one archive; the claim is about every set of silent stations in every network, and about windows in which other stations fall silent too.", "anchors": ["quakemigrate/io/data.py:Archive.read_waveform_data", "quakemigrate/signal/scan.py:QuakeScan.detect", "quakemigrate/signal/scan.py:QuakeScan.locate", "quakemigrate/signal/onsets/stalta.py:STALTAOnset.calculate_onsets", "quakemigrate/lut/lut.py:LUT.serve_traveltimes"]}
{"id": "C182", "title": "The order in which stations and phases are listed does not matter to detect and locate", "statement": "Listing the same stations and the same phases in another order leaves the result of detect (coalescence, availability in the columns of the output, completion) and the events and origin times of locate unchanged: the files are then read, the onsets computed and the rows migrated in another order, and what comes out is the same.", "quantifier": "all permutations of stations and phases, archives whose files hold the station they are filed under, lookup tables, onset settings, scan periods, time steps and lists of triggered events", "why_tests_cant": "A test swaps two stations in one archive; the claim is about every order, every archive and every window, including windows in which some stations are missing or fail the checks.", "anchors": ["quakemigrate/io/data.py:Archive.read_waveform_data", "quakemigrate/io/data.py:Archive._load_from_path", "quakemigrate/signal/scan.py:QuakeScan.detect", "quakemigrate/signal/scan.py:QuakeScan.locate", "quakemigrate/signal/onsets/stalta.py:STALTAOnset.calculate_onsets", "quakemigrate/lut/lut.py:LUT.serve_traveltimes", "quakemigrate/core/lib.py:migrate"]}
{"id": "C183", "title": "Archived channels that fail the data checks do not matter", "statement": "With all_channels off, channels that fail the data checks (flat, with gaps or overlaps, too short, at another rate) in every window in which they are read may be taken out of the archive, or replaced by other records that fail too: detect gives the same coalescence, availability and completion, and locate the same events and origin times.", "quantifier": "all archives, sets of failing channels, sampling rates, onset settings with all_channels off, scan periods, time steps and lists of triggered events", "why_tests_cant": "A test puts one dead channel into one archive; the claim is about every set of failing channels, however they fail, and about windows in which nothing else is recorded.", "anchors": ["quakemigrate/io/data.py:Archive.read_waveform_data", "quakemigrate/io/data.py:WaveformData.check_availability", "quakemigrate/signal/scan.py:QuakeScan.detect", "quakemigrate/signal/scan.py:QuakeScan.locate", "quakemigrate/signal/onsets/stalta.py:STALTAOnset.calculate_onsets"]}
{"id": "C184", "title": "Triggering in double precision decides as exact arithmetic", "statement": "trigger compares coalescence, thresholds and coordinates in doubles. It reports the events, in the same batches and with the same times, that exact arithmetic with the stored decimal numbers would: a value equal to the threshold triggers, one below does not, no peak moves, no event changes sides of the region. Dynamic thresholds differ from the exact ones by at most 1e-7 (1 + multiplier).", "quantifier": "all stored scan data with values up to 2^22 and at most nine decimals, thresholds, multipliers, window lengths, regions and spans", "why_tests_cant": "A test compares a few numbers; rounding goes wrong for particular combinations of values only, among billions.", "anchors": ["quakemigrate/signal/trigger.py:Trigger._get_threshold", "quakemigrate/signal/trigger.py:Trigger._identify_candidates", "quakemigrate/signal/trigger.py:Trigger._filter_events", "quakemigrate/util.py:calculate_mad", "quakemigrate/io/scanmseed.py:read_scanmseed"]}
{"id": "C185", "title": "Storing the scan in double precision", "statement": "With all scaling done in doubles, every non-negative coalescence value is stored without overflow and read back within half of 1e-5 (clipped at 21474), coordinates within half of their quantum; the order of values is kept; and numbers read from a file are stored again as the same whole numbers.", "quantifier": "all coalescence values and coordinates in range, grids in metres or kilometres", "why_tests_cant": "A test stores a few values; a rounding error shows only for particular values among billions.", "anchors": ["quakemigrate/io/scanmseed.py:ScanmSEED._data2int", "quakemigrate/io/scanmseed.py:ScanmSEED.append", "quakemigrate/io/scanmseed.py:read_scanmseed"]}
{"id": "C186", "title": "Locating a period in one run or in several gives the same events", "statement": "locate on a period writes the events, with the origin times, written by locate on its parts, wherever it is cut; it goes through to its end exactly if the parts do. Cut at midnights, each event is written once and in the same order. A call that ends early has written what the part it ended in would have written.", "quantifier": "all archives, lookup tables, settings, trigger files, periods and cuts, whatever the later stages do", "why_tests_cant": "A test locates a few events in one go; state kept between events, or an event lost or repeated at a cut, shows only for particular combinations.", "anchors": ["quakemigrate/signal/scan.py:QuakeScan.locate", "quakemigrate/signal/scan.py:QuakeScan._locate_events", "quakemigrate/io/triggered_events.py:read_triggered_events"]}
{"id": "C187", "title": "Amplitudes ten times larger make the magnitude larger by one", "statement": "With signal and noise g times as large on all traces, or the amplitude multiplier g times as large, the network magnitude is larger by log10 g; with all station corrections larger by k it is larger by k. Its error, the r-squared statistic and the set of observations used do not change.", "quantifier": "all tables of amplitudes without zero amplitudes, all settings (with weights: no zero error), all g > 0 and k", "why_tests_cant": "A test computes the magnitude of one table; a multiplier or correction applied to signal but not to noise, or twice, shows only when results at two scales are compared.", "anchors": ["quakemigrate/signal/local_mag/magnitude.py:Magnitude.calculate_magnitudes", "quakemigrate/signal/local_mag/magnitude.py:Magnitude.mean_magnitude", "quakemigrate/signal/local_mag/magnitude.py:Magnitude._filter_mags", "quakemigrate/signal/local_mag/magnitude.py:Magnitude._mag_r2"]}
{"id": "C188", "title": "Gain, clock and polarity of the data in an amplitude measurement", "statement": "Data k times as large give an amplitude k times as large, with the same frequency and time; a window that begins later gives a time as much later, with the same amplitude and frequency; data of reversed polarity give the same amplitude, frequency and time; where one fails, the other fails with the same error.", "quantifier": "all windows of data, all prominence settings, sample intervals, start times, gains k > 0 and time shifts", "why_tests_cant": "A test measures one window; a threshold not tied to the data, or peaks and troughs treated differently, shows only when the measurements of two related windows are compared.", "anchors": ["quakemigrate/signal/local_mag/amplitude.py:Amplitude._peak_to_trough_amplitude"]}
{"id": "C189", "title": "The picks of a station depend on that station and on relative times only", "statement": "The picks of an event at another time of day or on another day are the same picks, later by as much, with the same residuals. The rows of a station in the table of picks are those it has when it is picked alone, whatever the traveltimes and fits of the other stations; picking fails exactly if it fails for one station alone.", "quantifier": "all events, settings, curve fits, onset functions and sets of stations of different names, all time shifts", "why_tests_cant": "A test picks one event; state carried from one station to the next, or a dependence on the absolute time, shows only when two runs are compared.", "anchors": ["quakemigrate/signal/pickers/gaussian.py:GaussianPicker.pick_phases", "quakemigrate/signal/pickers/gaussian.py:GaussianPicker._determine_window"]}
{"id": "C190", "title": "The export reads the files that locate wrote", "statement": "Given the name and subname of a run, the export finds the event files that locate wrote for it and no others, reads the picks and amplitudes of each event from the files that locate wrote for that event, and names the file with its cut waveforms.", "quantifier": "all run names, subnames and event ids, all kinds and formats of cut waveforms", "why_tests_cant": "A test exports one example run; names with dots and other waveform formats are not among its files, and the paths are built in two places independently.", "anchors": ["quakemigrate/export/to_obspy.py:read_quakemigrate", "quakemigrate/export/to_obspy.py:_read_single_event", "quakemigrate/io/core.py:Run", "quakemigrate/io/cut_waveforms.py:write_cut_waveforms"]}
{"id": "C191", "title": "The onset report determines the onset functions", "statement": "Two onset objects that log the same report have the same STA/LTA position, sampling rate, phases, filters and windows, and calculate the same onset functions from the same data. The report states each of these settings.", "quantifier": "all settings, printings of numbers without ambiguity, data and signal processing routines", "why_tests_cant": "A test compares one report with a stored text; that nothing that matters is left out, and that two settings never print alike, concerns all pairs of settings.", "anchors": ["quakemigrate/signal/onsets/stalta.py:STALTAOnset.__str__", "quakemigrate/signal/onsets/stalta.py:STALTAOnset.calculate_onsets", "quakemigrate/signal/scan.py:QuakeScan.detect", "quakemigrate/signal/scan.py:QuakeScan.locate"]}
{"id": "C192", "title": "The station file for snuffler gives the place of each station", "statement": "A station file read with read_stations and written with snuffler_stations gives one line for each station, in order, with its own name, latitude, longitude and elevation.", "quantifier": "all station files and network codes", "why_tests_cant": "A test writes one file and compares it with what the code wrote before; the sign of the elevation is changed on reading, in another module.", "anchors": ["quakemigrate/export/to_snuffler.py:snuffler_stations", "quakemigrate/io/core.py:read_stations"]}
{"id": "C193", "title": "The simulated seismograph is a Wood-Anderson seismograph", "statement": "For ground motion of any frequency, the trace given by wa_response satisfies the equation of motion of a seismometer with a magnification of 2080, a period of 0.8 s and a damping of 0.8 (0.7 with obspy_def=False). The trace for ground velocity with VEL2DIS is the trace for the displacement with DIS2DIS. Real ground motion gives a real trace and free oscillations die out. In the definition used for magnitudes the magnification grows with the frequency, stays below 2080 and approaches it.", "quantifier": "all frequencies, amplitudes of the ground motion, definitions and conversions", "why_tests_cant": "A test compares the dictionary with stored numbers or a trace with a stored trace at a few frequencies; that the numbers describe the instrument on which the magnitude scale rests is a statement about a differential equation at all frequencies.", "anchors": ["quakemigrate/util.py:wa_response", "quakemigrate/io/data.py:WaveformData.get_wa_waveform"]}
{"id": "C194", "title": "The maps have the proportions of the grid and a true scale bar", "statement": "In the event and trigger summaries the map is as wide and as high as the grid is long on its two axes, the scale bar covers the part of the width of the map that its label is of the length of the grid, and its length is a whole number of cells, at least a tenth of the grid and less than one cell longer. Equal distances in the grid are equal on the page, and the scale bar is as long on the page as its label says.", "quantifier": "all grids, projections, widths of the figure and pairs of points", "why_tests_cant": "A test looks at one figure; that the scale holds wherever on the map it is used depends on the projection and the shape of the grid.", "anchors": ["quakemigrate/lut/lut.py:LUT.plot", "quakemigrate/lut/lut.py:Grid3D.get_grid_extent"]}
{"id": "C195", "title": "The amplitude of a clean signal is measured", "statement": "If the data of a measurement window rise to a crest, fall to a trough and rise again, an amplitude is measured; it is half the difference of two samples and at least half that swing. For a harmonic signal below the Nyquist frequency, in a window of two and a half periods, it is the amplitude of the signal in millimetres, up to the storage error and the distance of the samples from the crests. For harmonic ground displacement it is the displacement times the magnification of the Wood-Anderson seismograph.", "quantifier": "all windows of data, amplitudes, frequencies, phases, sampling intervals and monotone roundings of the stored samples (prominence_multiplier at its default of 0)", "why_tests_cant": "A test measures one synthetic trace; the claim holds for every frequency, phase and rounding, including level crests.", "anchors": ["quakemigrate/signal/local_mag/amplitude.py:Amplitude._peak_to_trough_amplitude", "quakemigrate/util.py:wa_response"]}
{"id": "C196", "title": "The report of an archive determines what is read from it", "statement": "Two archives that print alike read the same data: they have the same path, path structure, resampling, upsampling factor, stations and choice of files. Two archives for which locate logs the same report on response removal remove the response in the same way, or both not at all.", "quantifier": "all archive settings with names on one line, and printings of numbers without ambiguity", "why_tests_cant": "A test compares one text with a stored one; that nothing that matters is left out and that no two settings print alike concerns all pairs of settings.", "anchors": ["quakemigrate/io/data.py:Archive.__str__", "quakemigrate/io/data.py:Archive.__init__", "quakemigrate/io/data.py:Archive._load_from_path", "quakemigrate/signal/scan.py:QuakeScan.locate"]}
{"id": "C197", "title": "Time labels of the figures", "statement": "The label of a time on the time axes of the trigger and event figures gives the time of day rounded down to the last digit shown: two digits each of hours, minutes and seconds, and as many digits of the second as asked for. Two times of one day have the same label exactly when they agree up to that digit.", "quantifier": "all times of a day to the microsecond and all precisions up to six digits", "why_tests_cant": "A test formats a few times; rounding and the zeros in front can go wrong at any carry from one field to the next.", "anchors": ["quakemigrate/util.py:DateFormatter", "quakemigrate/plot/event.py:283", "quakemigrate/plot/trigger.py:294"]}

{"id": "C01", "title": "getamp reads the sample nearest in time", "statement": "getamp(rfdata, tarray, t) returns the element of rfdata at the position of the time sample nearest to t; when two samples are equally near it returns the earlier one; it raises ValueError on an empty time array and IndexError exactly when that position lies beyond rfdata; all five copies of getamp agree.", "quantifier": "every data array, every time array (any length, sorted or not) and every time t such that no distance |sample - t| is NaN", "why_tests_cant": "the claim is a minimum over an unbounded array and a tie rule; a sample of arrays cannot show that no nearer sample is ever skipped", "anchors": ["src/rfsed/hkZhu.py:getamp", "src/rfsed/hkSeqYeck.py:getamp", "src/rfsed/hkYu.py:getamp", "src/rfsed/SynthAnalysis.py:getamp", "src/rfsed/ReverbFilter.py:getamp"]}
{"id": "C02", "title": "getamp never interpolates or extrapolates", "statement": "On the regular time axis the stacking functions build, getamp at a time inside the record reads a sample within half a sampling interval of that time; before the first sample it reads the first sample and after the last sample it reads the last one, without any error.", "quantifier": "every sampling interval > 0, record length, pre-onset and time t", "why_tests_cant": "quantifies over a continuum of times and all axis lengths", "anchors": ["src/rfsed/hkZhu.py:getamp", "src/rfsed/hkZhu.py:hk"]}
{"id": "C03", "title": "H-k table enumerates the whole grid once, in K-major order", "statement": "hk returns a 'stackvalues' table with exactly len(K)*len(H) rows; row i*len(H)+j carries H[j] and K[i]; no row is left at its initial zeros and none is written twice. The call succeeds whenever the stream is non-empty, every trace has onset and slowness and is at least as long as the first one, which is not empty (with stack=True, the stacked record is at least as long as the first trace), Vp is non-zero, both grids are non-empty and the preview contour plot can be drawn; an empty grid raises ValueError and an empty stream IndexError.", "quantifier": "every stream, every H and K array of any length, all weights", "why_tests_cant": "row indexing must be right for all grid sizes; off-by-one errors in the running index appear only for some shapes", "anchors": ["src/rfsed/hkZhu.py:hk"]}
{"id": "C04", "title": "H-k stack value is the Zhu & Kanamori weighted sum over all traces", "statement": "In hk without stacking, the third column for (H,K) is the sum over all traces of w1*A(tPs)+w2*A(tPpPs)-w3*A(tPsPs), where A is the nearest-sample amplitude of that trace and the three times are the Zhu & Kanamori delay times for that trace's ray parameter.", "quantifier": "every stream, grid, Vp, weights and pre-critical ray parameter", "why_tests_cant": "an equality of real-valued functions over all inputs", "anchors": ["src/rfsed/hkZhu.py:hk"]}
{"id": "C05", "title": "bestmodel is the first global maximum of the H-k stack", "statement": "The 'bestmodel' returned by hk is the row of the table whose stack value no other row exceeds, and every earlier row is strictly smaller; its H and K come from the user's arrays.", "quantifier": "every stream, grid and weights with no NaN in the stack", "why_tests_cant": "global maximality over an unbounded table", "anchors": ["src/rfsed/hkZhu.py:hk"]}
{"id": "C06", "title": "stack=True equals N times the single stacked trace", "statement": "With stack=True, the value hk assigns to each grid point is the number of traces times the weighted sum computed from the stacked receiver function at the mean slowness, so individual traces only enter through the stack and the mean slowness, and the best model is the best model of the stacked trace alone.", "quantifier": "every stream, grid, weights", "why_tests_cant": "equality over all inputs; the redundant inner loop must cancel for every trace count", "anchors": ["src/rfsed/hkZhu.py:hk"]}
{"id": "C07", "title": "Trace order does not matter to hk", "statement": "Reordering the traces of the stream changes neither the H-k table nor the best model. (The code takes the time axis from the first trace only, so this needs all traces to share sampling interval and length.)", "quantifier": "every permutation of every stream", "why_tests_cant": "all permutations of unbounded lists", "anchors": ["src/rfsed/hkZhu.py:hk"]}
{"id": "C08", "title": "Phase delay times are ordered, additive and monotone", "statement": "For a pre-critical ray parameter and K >= 1, 0 <= tPs <= tPpPs <= tPsPs, tPs + tPpPs = tPsPs, and each time strictly increases with H (K > 1) and with K.", "quantifier": "every H, K, Vp, ray parameter in the physical range", "why_tests_cant": "inequalities over a continuum", "anchors": ["src/rfsed/hkZhu.py:hk", "src/rfsed/SynthAnalysis.py:hkSynth"]}
{"id": "C09", "title": "Delay times determine (H, Vp/Vs) uniquely", "statement": "For fixed Vp and pre-critical ray parameter, two models with H > 0 and K > 0 that predict the same tPs and tPpPs are the same model, and H and K can be recovered from the two times.", "quantifier": "all pairs of models", "why_tests_cant": "injectivity over a continuum", "anchors": ["src/rfsed/hkZhu.py:hk"]}
{"id": "C10", "title": "Stack values are bounded and an ideal RF is solved exactly", "statement": "No stack value exceeds N*(|w1|+|w2|+|w3|)*max|amplitude| in absolute value; if at some grid point all traces show the maximal positive amplitude at tPs and tPpPs and the maximal negative one at tPsPs and the weights are non-negative, then hk's best model attains that bound and no grid point scores more.", "quantifier": "every stream, grid, non-negative weights", "why_tests_cant": "global optimality for all data", "anchors": ["src/rfsed/hkZhu.py:hk"]}
{"id": "C11", "title": "Amplitude scaling does not move the best model", "statement": "Multiplying every trace by the same c > 0 multiplies every stack value by c and leaves the best H and K (including tie-breaking) unchanged.", "quantifier": "every stream, grid, weights and factor c > 0", "why_tests_cant": "all inputs and factors", "anchors": ["src/rfsed/hkZhu.py:hk"]}
{"id": "C12", "title": "None parameters mean the documented defaults in hk and hkSynth", "statement": "Passing None for Vp, w1, w2, w3, layer (and stack) to hk gives the same result as passing 6.5, 0.6, 0.3, 0.1, 'Moho' (and False), independently for each parameter; the same holds for hkSynth.", "quantifier": "every combination of omitted parameters and every other input", "why_tests_cant": "64 combinations times all inputs", "anchors": ["src/rfsed/hkZhu.py:hk", "src/rfsed/SynthAnalysis.py:hkSynth"]}
{"id": "C13", "title": "None weights in hkYu", "statement": "hkYu treats None for VpMoho and VpSed exactly as 6.5 and 2.5. None for a weight is NOT replaced by the documented default (0.6, 0.3, 0.1): the code assigns the defaults to other variables, so a call with any weight None never returns a result, and on non-empty grids with a usable filter result and non-zero velocities it raises TypeError.", "quantifier": "every filter result, grid and combination of omitted parameters", "why_tests_cant": "all inputs", "anchors": ["src/rfsed/hkYu.py:hkYu"]}
{"id": "C14", "title": "Post-critical ray parameters never raise and never produce NaN", "statement": "When the ray parameter exceeds 1/Vp or K/Vp (H and K numpy arrays, as documented), hk, hkYu and hkSynth neither fail nor return NaN because of it: with a numpy ray parameter or Vp an undefined delay time silently reads the first sample of the record; with a Python-float ray parameter and Vp the undefined P term only adds an imaginary part and the sample nearest to the real part is read.", "quantifier": "every ray parameter, including those outside the physical range", "why_tests_cant": "NaN propagation must be followed through all inputs", "anchors": ["src/rfsed/hkZhu.py:hk", "src/rfsed/hkYu.py:hkYu", "src/rfsed/SynthAnalysis.py:hkSynth"]}
{"id": "C15", "title": "Unequal trace lengths", "statement": "hk raises IndexError exactly when, for some grid point and some trace, the nearest sample on the first trace's time axis lies beyond that trace's data; samples of a trace beyond the first trace's length are never read.", "quantifier": "every stream with arbitrary lengths", "why_tests_cant": "all combinations of lengths and grids", "anchors": ["src/rfsed/hkZhu.py:hk"]}
{"id": "C16", "title": "Removing negative stack values only clips", "statement": "plothk with rmneg sets the stack values <= 0 to 0 and changes nothing else in the table; repeating it changes nothing more; because 'bestmodel' is a view of the table its stack value becomes max(S,0); the best model still is a maximum of the clipped table; with rmneg=False the table is untouched. Same for plotSeqhk, plothkYu, plothkSynth, plothkSeqSynth.", "quantifier": "every result table and every sequence of plot calls", "why_tests_cant": "holds for all histories of plot calls on one result", "anchors": ["src/rfsed/hkZhu.py:plothk", "src/rfsed/hkSeqYeck.py:plotSeqhk", "src/rfsed/hkYu.py:plothkYu", "src/rfsed/SynthAnalysis.py:plothkSynth"]}
{"id": "C17", "title": "Plotted arrival times are those of the best model", "statement": "The delay times plothk draws (and, without stacking, stores in every trace's stats as tps, tppps, tpsps) are the Zhu & Kanamori times of the best model for that trace, or for the mean slowness with stacking; with stacking the user's traces are not touched.", "quantifier": "every result of hk", "why_tests_cant": "equality for all results", "anchors": ["src/rfsed/hkZhu.py:plothk"]}
{"id": "C18", "title": "Unknown layer names fail late", "statement": "hk accepts every layer name, but plothk succeeds only for 'Moho' and 'Sed'; for every other name it raises UnboundLocalError, after having already clipped the table and annotated the traces. The same holds for hkSynth and plothkSynth (whose table is clipped only if rmneg asks for it).", "quantifier": "every layer string", "why_tests_cant": "all strings; state left behind at the crash point", "anchors": ["src/rfsed/hkZhu.py:plothk", "src/rfsed/hkZhu.py:hk", "src/rfsed/SynthAnalysis.py:hkSynth", "src/rfsed/SynthAnalysis.py:plothkSynth"]}
{"id": "C19", "title": "Sequential stacking does not sum over the traces: only the last one counts", "statement": "Without stacking (stack=False) each value of hkSeq's sediment table is the weighted sum of the three amplitudes of the last sediment trace alone, and the tables and best models are the same for any two calls whose streams end with the same traces; with stack=True it is the value of the stacked trace. So the documented sum over all traces is not computed: the running sum is never accumulated, and there are calls with two traces whose table values, in both stages, are not the sum over both.", "quantifier": "every pair of streams, grid, weights", "why_tests_cant": "all inputs; the shipped tests only check that a result is returned", "anchors": ["src/rfsed/hkSeqYeck.py:hkSeq"]}
{"id": "C20", "title": "Moho times include the sediment delay", "statement": "hkSeq's Moho stage uses, for each arrival, the sum of the single-layer delay times of the best sediment model and of the candidate crust; the three times satisfy tPs + tPpPs = tPsPs; with zero sediment thickness they reduce to the single-layer times.", "quantifier": "every sediment model, crustal candidate, ray parameter", "why_tests_cant": "identity over a continuum", "anchors": ["src/rfsed/hkSeqYeck.py:hkSeq", "src/rfsed/SynthAnalysis.py:hkSeqSynth"]}
{"id": "C21", "title": "Returned Moho table is non-negative, best model from the raw stack", "statement": "The stackvalueMoho table returned by hkSeq (and hkSeqSynth) has no negative value, whatever rmneg is; bestmodelMoho carries the H and K of the first maximum of the raw stack and the value max(S,0), where the raw stack is (pre-critically) the weighted sum w1*Ps + w2*PpPs - w3*PsPs of the Moho record read at the summed delay times of the best sediment layer and the crustal layer; the sediment table is returned unclipped.", "quantifier": "every input", "why_tests_cant": "all inputs, in particular those with an all-negative stack", "anchors": ["src/rfsed/hkSeqYeck.py:hkSeq", "src/rfsed/SynthAnalysis.py:hkSeqSynth"]}
{"id": "C22", "title": "One time axis and one mean slowness serve both streams", "statement": "hkSeq reads Moho traces on the time axis of the first sediment trace and, with stack=True, uses the mean slowness of the Moho stream for both stages; so the Moho stage is right only if both streams share sampling interval and start; otherwise the sample read is the one at the same index, not at the same time.", "quantifier": "every pair of streams", "why_tests_cant": "all combinations of sampling of the two streams", "anchors": ["src/rfsed/hkSeqYeck.py:hkSeq"]}
{"id": "C23", "title": "Sediment thickness and delay of the modified H-k method", "statement": "hkYu reports SedThick = tlag*VsSed/2 and Pdelay = tlag/2*(1-VsSed/VpSed); for 0 < VsSed <= VpSed and tlag >= 0, 0 <= Pdelay <= tlag/2; the adjusted times satisfy tPs' + tPpPs' = tPsPs' and keep their order tPs' <= tPpPs' <= tPsPs'.", "quantifier": "every tlag, velocities, grid point", "why_tests_cant": "inequalities over a continuum", "anchors": ["src/rfsed/hkYu.py:hkYu"]}
{"id": "C24", "title": "Without reverberation hkYu is plain H-k stacking", "statement": "If the resonance filter found no reverberation (tlag = 0) hkYu returns the same table and best model as hkSynth applied to the same data with the same parameters.", "quantifier": "every data, grid, weights", "why_tests_cant": "equality of two functions", "anchors": ["src/rfsed/hkYu.py:hkYu", "src/rfsed/SynthAnalysis.py:hkSynth"]}
{"id": "C25", "title": "All stacking variants search their whole grid and return the first maximum", "statement": "hkYu, hkSynth and both stages of hkSeq and hkSeqSynth return tables with one row per grid point in K-major order and, as best model, the first global maximum (in the Moho stage the first maximum of the raw stack, before negative values are set to zero; see C21).", "quantifier": "every input", "why_tests_cant": "as C03/C05, for five more loops", "anchors": ["src/rfsed/hkYu.py:hkYu", "src/rfsed/hkSeqYeck.py:hkSeq", "src/rfsed/SynthAnalysis.py:hkSynth", "src/rfsed/SynthAnalysis.py:hkSeqSynth"]}
{"id": "C26", "title": "hk on one trace agrees with hkSynth", "statement": "For a stream of one trace, hk(stack=False) gives the same table and best model as hkSynth on that trace's data, the same time axis and the ray parameter kilometer2degrees(1)*slowness.", "quantifier": "every trace, grid, weights", "why_tests_cant": "equality of two functions over all inputs", "anchors": ["src/rfsed/hkZhu.py:hk", "src/rfsed/SynthAnalysis.py:hkSynth"]}
{"id": "C27", "title": "hkSeq on one trace per stream agrees with hkSeqSynth", "statement": "For streams of one trace each with equal slowness, hkSeq gives the same tables and best models as hkSeqSynth on the same data.", "quantifier": "every pair of traces, grid, weights", "why_tests_cant": "equality of two functions over all inputs", "anchors": ["src/rfsed/hkSeqYeck.py:hkSeq", "src/rfsed/SynthAnalysis.py:hkSeqSynth"]}
{"id": "C28", "title": "Resonance filter has one coefficient per sample", "statement": "The angular-frequency vector of ResonanceFilt has exactly n entries for every n >= 1, even or odd, in FFT order, so the filter always multiplies the spectrum elementwise.", "quantifier": "every record length n", "why_tests_cant": "parity-dependent floor divisions must be right for all n", "anchors": ["src/rfsed/ReverbFilter.py:ResonanceFilt", "src/rfsed/SynthAnalysis.py:ResonanceFilt"]}
{"id": "C29", "title": "Resonance filtering adds a delayed, scaled copy", "statement": "The filtered receiver function is D[m] + r*D[(m-L) mod n], where D is the detrended stacked data, r the reported strength and L = tlag/dt the lag in samples; in particular it is real and the delayed copy wraps around the end of the record.", "quantifier": "every record, length, sampling interval", "why_tests_cant": "an identity between a frequency-domain computation and its time-domain meaning for all n", "anchors": ["src/rfsed/ReverbFilter.py:ResonanceFilt"]}
{"id": "C30", "title": "Autocorrelation is normalised and r, tlag are in range", "statement": "For data that are not purely linear, autoc[0] = 1 and |autoc[k]| <= 1; 0 <= r <= 1; tlag = L*dt with 1 <= L <= n-2 when a trough is found, and tlag = 0, r = 0 otherwise.", "quantifier": "every record", "why_tests_cant": "Cauchy-Schwarz bound over all data", "anchors": ["src/rfsed/ReverbFilter.py:ResonanceFilt"]}
{"id": "C31", "title": "No trough means no filtering", "statement": "If the autocorrelation has no interior local minimum, ResonanceFilt reports r = 0 and tlag = 0, the filter is identically 1 and the output is the detrended data.", "quantifier": "every record without a trough", "why_tests_cant": "all records", "anchors": ["src/rfsed/ReverbFilter.py:ResonanceFilt"]}
{"id": "C32", "title": "Resonance filter cancels a matching reverberation", "statement": "If the detrended data are a signal S with a reverberation of strength r and lag L, i.e. D[m] = S[m] - r*D[(m-L) mod n], and the filter picks exactly r and L, the output is S.", "quantifier": "every signal S, strength and lag", "why_tests_cant": "inverse property for all signals", "anchors": ["src/rfsed/ReverbFilter.py:ResonanceFilt"]}
{"id": "C33", "title": "Offsets and linear trends do not affect filtering", "statement": "Adding any constant or linear trend to the stacked data changes neither the filtered RF nor r, tlag, autocorrelation; and the filtered RF has zero mean.", "quantifier": "every record and every trend", "why_tests_cant": "all data", "anchors": ["src/rfsed/ReverbFilter.py:ResonanceFilt"]}
{"id": "C34", "title": "Synthetic and real-data resonance filters agree", "statement": "SynthAnalysis.ResonanceFilt(data, time) and ReverbFilter.ResonanceFilt(stream, preonset) give the same filtered RF, autocorrelation, filter, r and tlag when data is the stack and time the regular axis; the synthetic version raises IndexError for fewer than two time samples.", "quantifier": "every record with at least two samples", "why_tests_cant": "equality of two functions", "anchors": ["src/rfsed/ReverbFilter.py:ResonanceFilt", "src/rfsed/SynthAnalysis.py:ResonanceFilt"]}
{"id": "C35", "title": "The lag is the first trough, whatever its sign", "statement": "tlag is the position of the first interior local minimum (midpoint of a flat one) of the autocorrelation and no earlier interior local minimum exists; r is its absolute value, so a trough with positive autocorrelation also yields a positive r.", "quantifier": "every record", "why_tests_cant": "first-occurrence claim over all records", "anchors": ["src/rfsed/ReverbFilter.py:ResonanceFilt"]}
{"id": "C36", "title": "Waveform-fitting window starts at t = 0 and spans 25 s", "statement": "WaveformFitting and WaveformPara judge every model on exactly the samples with 0 <= t <= 25 s - delta that the record contains (t = delta*i - preonset), for data and synthetic alike; when delta divides 25 s this is 0 <= t < 25 s and at most 25/delta samples. They raise IndexError when no sample time equals 0, i.e. when preonset is not a multiple of delta within the record.", "quantifier": "every delta, preonset, record length", "why_tests_cant": "divisibility condition over all inputs", "anchors": ["src/rfsed/WaveformFitting.py:WaveformFitting", "src/rfsed/WaveformFittingMultiproc.py:WaveformPara"]}
{"id": "C37", "title": "Serial and multiprocess waveform fitting find the same solutions", "statement": "run_waveformfitting + plotbestmodel evaluate the same (H,K) grid with the same criteria as WaveformFitting: the solution tables are permutations of each other, the best value of each criterion is the same, and so is the best model whenever it is unique. This holds bit by bit in rounded arithmetic, not only in exact arithmetic.", "quantifier": "every grid, data, number of processes and schedule", "why_tests_cant": "all grids, all schedules", "anchors": ["src/rfsed/WaveformFitting.py:WaveformFitting", "src/rfsed/WaveformFittingMultiproc.py:run_waveformfitting", "src/rfsed/WaveformFittingMultiproc.py:plotbestmodel"]}
{"id": "C38", "title": "Overall goodness of fit is at most 1", "statement": "With non-negative weights summing to one, non-negative RMSE and positive best correlation, PG and worst RMSE, the overall goodness of fit of every model is at most 1, and equals 1 only for a model that is best in every criterion with positive weight and, if wtRMSE > 0, has zero misfit.", "quantifier": "every table of criteria and every weight choice", "why_tests_cant": "inequality over all tables", "anchors": ["src/rfsed/WaveformFitting.py:WaveformFitting"]}
{"id": "C39", "title": "Extreme weights reproduce the single criteria", "statement": "With weights (1,0,0), (0,1,0) or (0,0,1) the overall best model is the best model of the correlation, RMSE or phase criterion alone (given a positive normaliser).", "quantifier": "every table of criteria", "why_tests_cant": "all tables", "anchors": ["src/rfsed/WaveformFitting.py:WaveformFitting"]}
{"id": "C40", "title": "A better model never scores lower", "statement": "If one model is at least as good as another in correlation, RMSE and PG, its overall goodness of fit is at least as large. (Needs positive normalisers: the code divides by the best value, so when every correlation or PG is negative the ranking is inverted.)", "quantifier": "every table, every pair of models, every non-negative weights", "why_tests_cant": "monotonicity over all tables", "anchors": ["src/rfsed/WaveformFitting.py:WaveformFitting"]}
{"id": "C41", "title": "Weights passed for plotting are ignored", "statement": "PlotWaveformFitting(result, wtCorr, wtRMSE, wtPG, ...) shows the overall best model stored by WaveformFitting, for the weights given there: for every result its figures are the same for all weights passed to it. So the documented behaviour (the overall best model for the weights passed for plotting) fails: there are results and weights for which the model marked is not the best one for these weights.", "quantifier": "every result and every choice of weights", "why_tests_cant": "for all weights the output is the same", "anchors": ["src/rfsed/WaveformFitting.py:PlotWaveformFitting"]}
{"id": "C42", "title": "plotbestmodel needs exactly one result per grid point", "statement": "plotbestmodel works on exactly the given solutions when their number is len(HMoho)*len(KMoho) of ModelParams; with more solutions it raises IndexError; with fewer it adds spurious all-zero solutions that take part in the choice of the best model.", "quantifier": "every list of results and every ModelParams", "why_tests_cant": "all size combinations", "anchors": ["src/rfsed/WaveformFittingMultiproc.py:plotbestmodel", "src/rfsed/WaveformFittingMultiproc.py:run_waveformfitting"]}
{"id": "C43", "title": "Phase criterion sees only signs", "statement": "The traces given to the phase criterion are the signs (-1, 0, 1) of the data, so the PG value is unchanged by any positive, even time-dependent, rescaling of either trace.", "quantifier": "every pair of traces", "why_tests_cant": "all traces, all rescalings", "anchors": ["src/rfsed/WaveformFitting.py:WaveformFitting"]}
{"id": "C44", "title": "RMSE and correlation have their meaning", "statement": "RMSE is non-negative, zero exactly when the two windows coincide, symmetric and satisfies the triangle inequality; the correlation lies in [-1,1] and is invariant under positive scaling and shifting of either trace.", "quantifier": "every pair of windows", "why_tests_cant": "all data", "anchors": ["src/rfsed/WaveformFitting.py:WaveformFitting"]}
{"id": "C45", "title": "Depth profiles become layer thicknesses", "statement": "synrf turns interface depths into thicknesses whose running sums are the depths again; for non-decreasing non-negative depths all thicknesses are non-negative; in waveform fitting the crustal layer has thickness H - HSed, i.e. HMoho is a depth.", "quantifier": "every depth profile of any length", "why_tests_cant": "all lengths", "anchors": ["src/rfsed/synrf.py:synrf.__init__", "src/rfsed/WaveformFitting.py:WaveformFitting"]}
{"id": "C46", "title": "Parallel maps return results in input order for every schedule", "statement": "For every number of worker processes and every order in which workers take and finish chunks, the parallel map used for waveform fitting, event times and extraction returns exactly [f(x) for x in inputs] once all chunks are done, evaluates each input exactly once, and raises if any evaluation raises.", "quantifier": "every input list, nproc, schedule", "why_tests_cant": "all interleavings", "anchors": ["src/rfsed/WaveformFittingMultiproc.py:run_waveformfitting", "src/rfsed/ExtractEqMultiproc.py:Get_Eqtimes_multiproc", "src/rfsed/ExtractEqMultiproc.py:ExtractEq_Multiproc"]}
{"id": "C47", "title": "Event windows contain the P onset", "statement": "The requested window is [onset-|w0|, onset+|w1|] with onset = origin time + first-arrival travel time; so start <= onset <= end, its length is |w0|+|w1| and the sign of the two request values is irrelevant; an event without arrivals raises IndexError.", "quantifier": "every event, station and request window", "why_tests_cant": "all values including negative ones", "anchors": ["src/rfsed/ExtractEq.py:ExtractEq", "src/rfsed/ExtractEqMultiproc.py:Eq_times"]}
{"id": "C48", "title": "Parallel event times equal the serial ones", "statement": "Get_Eqtimes_multiproc(Add_sta_time_2cat(...)) yields, event by event in catalogue order, the windows and onsets ExtractEq computes.", "quantifier": "every catalogue, nproc and schedule", "why_tests_cant": "all catalogues and schedules", "anchors": ["src/rfsed/ExtractEqMultiproc.py:Get_Eqtimes_multiproc", "src/rfsed/ExtractEq.py:ExtractEq"]}
{"id": "C49", "title": "ExtractEq writes exactly the fully covered events", "statement": "The stream ExtractEq writes consists, file by file and event by event, of the data read for those (file, event) pairs whose window lies inside the span of the file's first trace, every trace stamped with that event's onset; nothing else is written and an empty selection or an empty directory raises.", "quantifier": "every set of files and catalogue", "why_tests_cant": "all combinations of files and events", "anchors": ["src/rfsed/ExtractEq.py:ExtractEq"]}
{"id": "C50", "title": "Multiprocess extraction includes everything the serial one does", "statement": "The serial output is a subsequence of the multiprocess output for the same files and events, with equal onsets; they coincide if every window is either inside a file's span or yields no data from it; otherwise the multiprocess output additionally has partial windows.", "quantifier": "every set of files, catalogue, nproc, schedule", "why_tests_cant": "all files and schedules", "anchors": ["src/rfsed/ExtractEqMultiproc.py:ExtractEq_Multiproc", "src/rfsed/ExtractEqMultiproc.py:Get_EqStream_multiproc", "src/rfsed/ExtractEq.py:ExtractEq"]}
{"id": "C51", "title": "synrf accepts float, list and array ray parameters", "statement": "synrf raises TypeError for every ray parameter that is not a float, list or numpy array (an int in particular); a float counts as a list of one; run_fwd then produces one radial and one vertical trace per ray parameter, each with npts samples.", "quantifier": "every ray-parameter argument, every npts", "why_tests_cant": "all inputs", "anchors": ["src/rfsed/synrf.py:synrf"]}
{"id": "C52", "title": "synrf object history", "statement": "run_fwd discards earlier seismograms, so its outcome does not depend on the history; filter and run_deconvolution before run_fwd raise AttributeError; every filter call and every run_deconvolution call with a pre-filter applies one more filter pass to the stored seismograms, so run_deconvolution is not repeatable without run_fwd.", "quantifier": "every sequence of method calls", "why_tests_cant": "all histories", "anchors": ["src/rfsed/synrf.py:synrf.run_fwd", "src/rfsed/synrf.py:synrf.filter", "src/rfsed/synrf.py:synrf.run_deconvolution"]}
{"id": "C53", "title": "Iterative deconvolution terminates and reports its work", "statement": "deconv_iterative raises the module's own ValueError for traces of different lengths, succeeds for every pair of traces with at least three samples and dt != 0, and raises ZeroDivisionError or ValueError for empty or one-sample traces; it does at most itmax iterations and, for minderr > 0, fewer than 100/minderr + 1; the returned rms has it-1 entries for it >= 1 (the last misfit is dropped), each more than minderr per cent below the one before it, and itmax-1 zeros if no iteration was needed, which happens exactly if itmax = 0 or the numerator is all zero; the receiver function has as many samples as the traces and is NaN exactly if an iteration is made with an all-zero denominator trace.", "quantifier": "every pair of traces and parameters (minderr >= 0 for the two 'exactly if' clauses)", "why_tests_cant": "all inputs", "anchors": ["src/rfsed/synrf.py:deconv_iterative"]}
{"id": "C54", "title": "Iterative deconvolution is greedy and never increases the misfit", "statement": "Each iteration changes one spike, the first among those (lag and amplitude) that reduce the misfit most; so the returned rms sequence is non-increasing and lies in [0,1]; entry j is the misfit of the spike train after j+1 iterations. A scaled copy of the denominator delayed by an admissible lag is explained completely in two iterations with rms = [0]; deconvolving a trace by itself, or a multiple of it, gives (unless the preonset is one of the shifts excluded in C56) the Gaussian pulse at the preonset, scaled by 1/dt.", "quantifier": "every pair of traces and every number of iterations", "why_tests_cant": "an inequality for all data and all iterations, through the FFT", "anchors": ["src/rfsed/synrf.py:deconv_iterative"]}
{"id": "C55", "title": "Only causal lags below half the FFT length receive spikes", "statement": "With phase='P' the receiver function is a spike train with at most `it` spikes, all at lags 0 .. nfft/2-2, convolved with the Gaussian pulse and delayed circularly by int(preonset/dt) samples. (Preonsets excluded in C56 are excluded here.)", "quantifier": "every input and iteration", "why_tests_cant": "invariant over iterations", "anchors": ["src/rfsed/synrf.py:deconv_iterative"]}
{"id": "C56", "title": "phaseshift is a circular shift by int(preonset/dt) samples", "statement": "phaseshift(x, nfft, dt, preonset) returns x delayed circularly by int(preonset/dt) samples, despite its 1-based phase ramp, unless the shift is an odd multiple of nfft/4, where the correction factor divides by zero.", "quantifier": "every signal, length and shift", "why_tests_cant": "identity for all n and shifts", "anchors": ["src/rfsed/synrf.py:phaseshift"]}
{"id": "C57", "title": "gaussFilter is a symmetric low-pass", "statement": "For even nft >= 2 gaussFilter returns nft values exp(-(omega/2a)^2)/dt, symmetric about the Nyquist frequency, all in (0, 1/dt], equal to 1/dt at zero frequency and non-increasing towards Nyquist; filtering a real trace with it is circular convolution with a real Gaussian pulse, keeps the sum of the samples and never increases the energy. For odd nft it raises.", "quantifier": "every dt > 0, gaussian != 0, nft", "why_tests_cant": "all lengths", "anchors": ["src/rfsed/synrf.py:gaussFilter", "src/rfsed/synrf.py:gfilter"]}
{"id": "C58", "title": "Water-level deconvolution is stable and exact when no level is needed", "statement": "The receiver function is the inverse transform of G U conj(W) / max(|W|^2, wlevel max|W|^2) delayed by preonset; its samples are bounded by sum|U_k| / (n dt sqrt(wlevel max|W|^2)) however small W gets; if no frequency is below the level the numerator is predicted exactly (rms = 0); deconvolving a trace by itself gives the Gaussian pulse delayed by preonset, of height one with normalize=True.", "quantifier": "every pair of traces and parameters", "why_tests_cant": "all data", "anchors": ["src/rfsed/synrf.py:deconv_waterlevel"]}
{"id": "C59", "title": "deconvolve dispatches on the method name", "statement": "deconvolve and RFTrace.deconvolve use the iterative method for any capitalisation of 'iter', the water-level method for any capitalisation of 'water', raise the module's ValueError for every other name and TypeError for keyword arguments the method does not know; RFTrace.deconvolve returns the same receiver function as a trace that keeps the numerator's sampling interval.", "quantifier": "every method string", "why_tests_cant": "all strings", "anchors": ["src/rfsed/synrf.py:deconvolve", "src/rfsed/synrf.py:RFTrace.deconvolve"]}
{"id": "C60", "title": "Splitting a layer does not change the seismograms", "statement": "In a model of at least two layers, dividing a layer into two layers with the same velocities and density and the same total thickness changes neither the surface displacement (haskell) nor the synthetic seismograms; a zero-thickness layer has no effect.", "quantifier": "every layered model with non-zero densities (for a single half-space see C78), non-zero frequency, slowness, split point; zero-thickness layers above the last one in which both waves propagate", "why_tests_cant": "matrix identities over a continuum and all layer counts", "anchors": ["src/rfsed/synrf.py:propagator_sol", "src/rfsed/synrf.py:haskell", "src/rfsed/synrf.py:fwd_seis"]}
{"id": "C61", "title": "haskell solves the free-surface problem", "statement": "The displacements haskell returns for an incident P (S) wave satisfy the two linear boundary equations: unit up-going P (S) amplitude and zero up-going S (P) amplitude in the half-space, and are the only ones that do; the determinant is non-zero whenever P and S propagate in every layer.", "quantifier": "every model, every non-zero frequency and every slowness at which P and S propagate in every layer", "why_tests_cant": "all models", "anchors": ["src/rfsed/synrf.py:haskell"]}
{"id": "C62", "title": "Synthetic seismograms have no static offset", "statement": "fwd_seis returns two real traces with npts samples; over the full FFT length they sum to zero because the zero frequency is never set.", "quantifier": "every model, npts", "why_tests_cant": "all lengths", "anchors": ["src/rfsed/synrf.py:fwd_seis"]}
{"id": "C63", "title": "Output directories and example installation are idempotent", "statement": "A save_* helper returns its path, leaves an existing directory alone and creates a missing one if its parent exists (otherwise it raises and changes nothing); calling it again changes nothing; the six helpers use six directories. When several processes call one at once, at least one returns, the others return or raise FileExistsError, and the directory exists afterwards. install_examples(path) writes exactly the two trees to path/examples and path/data, overwrites colliding files, keeps all others, and twice equals once; but after path was created by it and then removed, a second call in the same process installs nothing and raises, while a new process installs again.", "quantifier": "every file-system state, every pair of source trees, every interleaving of callers and every call history", "why_tests_cant": "all states", "anchors": ["src/rfsed/util.py:save_plot", "src/rfsed/util.py:install_examples"]}
{"id": "C64", "title": "Resonance filtering always reports a reverberation", "statement": "For every record that is not exactly a straight line, the autocorrelation of the detrended data has an interior trough: tlag is a positive whole number of samples and 'No reverberation detected' cannot occur; for a straight line r = tlag = 0 and the output is zero.", "quantifier": "every record of every length", "why_tests_cant": "existence of a trough for all data follows from the vanishing moments of detrended data, not from samples", "anchors": ["src/rfsed/ReverbFilter.py:ResonanceFilt", "src/rfsed/SynthAnalysis.py:ResonanceFilt"]}
{"id": "C65", "title": "Resonance filtering is energy-bounded", "statement": "The energy of the filtered receiver function lies between (1-r)^2 and (1+r)^2 times the energy of the detrended data, with 0 <= r < 1.", "quantifier": "every record", "why_tests_cant": "inequality over all data", "anchors": ["src/rfsed/ReverbFilter.py:ResonanceFilt"]}
{"id": "C66", "title": "Resonance filtering commutes with amplitude scaling", "statement": "Multiplying the data by any non-zero constant multiplies the filtered receiver function by it and leaves autocorrelation, r and tlag unchanged.", "quantifier": "every record and every non-zero factor", "why_tests_cant": "all data and factors", "anchors": ["src/rfsed/ReverbFilter.py:ResonanceFilt"]}
{"id": "C67", "title": "Resonance-filter figures", "statement": "plotfiltrf and plotfiltSynthrf save exactly three figures (autocorrelation; real part of the filter; data and filtered data) against the receiver-function time axis, so lag k*dt is drawn at k*dt - preonset; if the stack and the first trace have different lengths ValueError is raised before anything is saved.", "quantifier": "every filter result", "why_tests_cant": "all results, lengths and axes", "anchors": ["src/rfsed/ReverbFilter.py:plotfiltrf", "src/rfsed/SynthAnalysis.py:plotfiltSynthrf"]}
{"id": "C68", "title": "ResonanceFilt followed by hkYu always finds sediment", "statement": "hkYu runs on every result of ResonanceFilt with non-empty grids and non-zero velocities; for every record that is not a straight line the reported sediment thickness is a positive multiple of dt*VsSed/2 and the P delay is non-negative.", "quantifier": "every record with dt > 0, every grid, all velocities (0 < VsSed <= VpSed for the sign statements), drawable preview plot", "why_tests_cant": "composition of two functions over all data", "anchors": ["src/rfsed/ReverbFilter.py:ResonanceFilt", "src/rfsed/hkYu.py:hkYu"]}
{"id": "C69", "title": "A NaN criterion hides the fit", "statement": "If a criterion of the first grid point is NaN, every overall goodness of fit is NaN and the overall best model reported is the first grid point, whatever the fits; a NaN at another grid point does not change the normalising maximum but its row is reported as the best one. In particular a constant stacked receiver function (dead station) makes all correlations NaN, and the first grid point is reported as best by correlation and overall.", "quantifier": "every table of criteria with NaN entries; every grid for a constant stack", "why_tests_cant": "all tables and positions of NaN", "anchors": ["src/rfsed/WaveformFitting.py:WaveformFitting", "src/rfsed/WaveformFittingMultiproc.py:plotbestmodel"]}
{"id": "C70", "title": "The synthetic drawn is the one that was fitted", "statement": "Each figure of the waveform fitting marks one best model and draws the synthetic receiver function of that model; plotbestmodel computes it with exactly the parameters used in the fit, PlotWaveformFitting uses |starttime - onset| of the first trace instead of |preonset|, hence the same synthetic whenever these agree.", "quantifier": "every input", "why_tests_cant": "all inputs", "anchors": ["src/rfsed/WaveformFitting.py:PlotWaveformFitting", "src/rfsed/WaveformFittingMultiproc.py:plotbestmodel"]}
{"id": "C71", "title": "One solution per grid point; best models are the first extremes", "statement": "WaveformFitting returns one solution per (Vp/Vs, depth) pair, Vp/Vs in the outer and depth in the inner loop; the best models reported are the first rows with largest correlation, smallest RMSE, largest PG, largest overall goodness of fit, or the row of the first NaN of the respective column.", "quantifier": "every grid, data and weights", "why_tests_cant": "all grids", "anchors": ["src/rfsed/WaveformFitting.py:WaveformFitting", "src/rfsed/WaveformFittingMultiproc.py:plotbestmodel"]}
{"id": "C72", "title": "Propagator matrices solve the elastic equations", "statement": "In a layer where both waves propagate, the matrix of propagator_sol carries displacement and traction exactly along the solutions of Hooke's and Newton's laws, and e_inverse yields the amplitudes of the two down-going and two up-going plane waves of a solution.", "quantifier": "every frequency, slowness, layer, depth and wave field", "why_tests_cant": "an identity of functions of five continuous parameters; tests sample a few points with tolerances", "anchors": ["src/rfsed/synrf.py: propagator_sol, e_inverse"]}
{"id": "C73", "title": "Synthetics are numbers exactly below the critical slowness", "statement": "fwd_seis raises nothing for solid layers: both traces are numbers if the slowness is below 1/alpha and 1/beta of every layer, and every sample of both is NaN otherwise.", "quantifier": "every stack, slowness, sampling interval, npts >= 2", "why_tests_cant": "the dividing line depends on every layer and slowness", "anchors": ["src/rfsed/synrf.py: fwd_seis, haskell, e_inverse, propagator_sol"]}
{"id": "C74", "title": "Energy conservation of the layered response", "statement": "The energy flux of the down-going waves in the last layer that go with the surface motion returned equals the flux of the incident wave.", "quantifier": "every stack, frequency, slowness below critical, both kinds of incident wave", "why_tests_cant": "an identity over all frequencies and stacks", "anchors": ["src/rfsed/synrf.py: haskell"]}
{"id": "C75", "title": "The last layer's thickness only delays the synthetics", "statement": "Changing the thickness of the last layer of a stack with two or more layers multiplies the spectrum by the phase of the incident wave's travel time; if that is a whole number of samples the traces are shifted by it.", "quantifier": "every stack of two or more layers in which both waves propagate, every thickness change, every non-zero frequency", "why_tests_cant": "quantifies over all stacks and thicknesses", "anchors": ["src/rfsed/synrf.py: haskell, fwd_seis"]}
{"id": "C76", "title": "Reversing the slowness mirrors the wave field", "statement": "Slowness -p gives the same vertical and the opposite radial motion for an incident P wave (the reverse for S); at vertical incidence the radial trace of a P wave is identically zero.", "quantifier": "every stack, frequency, slowness", "why_tests_cant": "a symmetry of the whole parameter space", "anchors": ["src/rfsed/synrf.py: haskell, fwd_seis"]}
{"id": "C77", "title": "Synthetics do not depend on units", "statement": "Multiplying all lengths by L, all times by T and densities by R leaves the seismograms unchanged, so km and km/s may be replaced by m and m/s consistently.", "quantifier": "every stack, sampling interval and positive L, T, R", "why_tests_cant": "a scaling law over a continuum of scales", "anchors": ["src/rfsed/synrf.py: fwd_seis"]}
{"id": "C78", "title": "Half-space and homogeneous stacks have the textbook response", "statement": "A one-layer model responds with the classical free-surface coefficients and its thickness is ignored; a stack of layers of one material responds like that half-space with the delay of the total thickness.", "quantifier": "every half-space, slowness, frequency; every division into layers", "why_tests_cant": "identities over continuous parameters and any number of layers", "anchors": ["src/rfsed/synrf.py: haskell"]}
{"id": "C79", "title": "Slownesses that do not propagate are not reported", "statement": "For a slowness for which some layer transmits no P or no S wave, no call of the synthetics object raises: the default receiver function is a trace of zeros found in no iteration whatever is filtered, and the water-level one a trace of NaN. The same silent zeros come out for a P wave at vertical incidence.", "quantifier": "all layered models, slownesses beyond a critical one, histories of filter and deconvolution calls, band-pass filters that keep the length", "why_tests_cant": "a test fixes one model and one slowness", "anchors": ["src/rfsed/synrf.py:synrf.run_fwd", "src/rfsed/synrf.py:synrf.run_deconvolution"]}
{"id": "C80", "title": "What the saved H-k figures show", "statement": "Every H-k plotting call that succeeds draws the (clipped, where asked) stack table with a cross at the best model, labels the cross with its depth and with its Vp/Vs plus 0.001, uses the fixed time window of its layer, draws one curve per trace (or one stacked curve at level 180) with value data*gain+level over times measured from the onset, marks the predicted conversion and multiples of the best model, and saves under <savepath>/<station>_<channel>_<layer>.<format>; it fails exactly when some gain is missing, a grid is empty, the single curve does not have one sample per time, or a drawing or saving step fails. The sequential plot has saved the sediment figure even when the Moho figure fails.", "quantifier": "every H-k result of every stacking variant, every gain list, rmneg flag and format", "why_tests_cant": "ranges over all tables, streams, gain lists and failures of the drawing backend", "anchors": ["src/rfsed/hkZhu.py: plothk", "src/rfsed/hkYu.py: plothkYu", "src/rfsed/hkSeqYeck.py: plotSeqhk", "src/rfsed/SynthAnalysis.py: plothkSynth", "src/rfsed/SynthAnalysis.py: plothkSeqSynth"]}
{"id": "C81", "title": "What the saved waveform-fitting figures show", "statement": "Each plotting call that succeeds saves exactly four figures, for correlation, misfit, phase fit and overall fit in this order; each shows its criterion at every solution of the table, a cross at the best model of that criterion (legend: Vp/Vs plus 0.001), the stacked trace at its true times from the onset, a band of constant half-width equal to the standard deviation of the stack over time (not over events), and the sediment/crust/mantle velocity profile of the best model. The serial version's axes run from the first to the last grid value, the parallel version's from the smallest to the largest.", "quantifier": "every stream, grid, weights and solution table for which plotting succeeds", "why_tests_cant": "ranges over all streams, grids and tables", "anchors": ["src/rfsed/WaveformFitting.py: PlotWaveformFitting", "src/rfsed/WaveformFittingMultiproc.py: plotbestmodel"]}
{"id": "C82", "title": "Repeating an extraction", "statement": "If the output file is neither matched by the data path nor the catalogue, running ExtractEq again with the same arguments succeeds again and changes nothing; if the output lies among the data files the second run extracts from the first one's output as well.", "quantifier": "all file systems, catalogues, stations, windows and travel-time models", "why_tests_cant": "a test runs one extraction into one fresh place", "anchors": ["src/rfsed/ExtractEq.py:ExtractEq"]}
{"id": "C83", "title": "Extraction does not depend on directory order", "statement": "ExtractEq has the same outcome and leaves the same files on any two file systems with the same contents, whatever the order in which they list directories.", "quantifier": "all pairs of file systems with equal contents, all arguments", "why_tests_cant": "a test sees the listing order of one file system", "anchors": ["src/rfsed/ExtractEq.py:ExtractEq"]}
{"id": "C84", "title": "From the layered model to the receiver functions", "statement": "For solid layers, run_fwd followed by any filter and deconvolution calls and the default run_deconvolution returns one receiver function per slowness; at subcritical slownesses it is the iterative deconvolution of the radial by the vertical surface motion that the equations of motion, the layer contacts and the free surface determine for the incident wave, filtered by all passes in the order of the calls.", "quantifier": "all layered models, slowness lists, sampling, histories of calls after run_fwd, length-preserving filters", "why_tests_cant": "it composes three stages over arbitrary models and histories and compares with the solution of a differential equation", "anchors": ["src/rfsed/synrf.py:synrf.__init__", "src/rfsed/synrf.py:synrf.run_fwd", "src/rfsed/synrf.py:synrf.run_deconvolution"]}
{"id": "C85", "title": "The receiver function of a homogeneous medium", "statement": "A model all of whose layers are of one material has, for an incident P wave of subcritical slowness p != 0, p != 1/(beta sqrt 2), a receiver function that is one Gaussian pulse at the preonset with amplitude tan(2 arcsin(beta p)) found in two iterations, unless filtering removed the whole vertical trace (zeros); for a single unfiltered layer the pulse is always there, except at p = 1/(beta sqrt 2), where the receiver function is NaN.", "quantifier": "all materials, numbers and thicknesses of layers, slownesses, samplings, linear length-preserving filters", "why_tests_cant": "the closed form ranges over all materials, thicknesses and slownesses; a test compares one trace", "anchors": ["src/rfsed/synrf.py:synrf.run_fwd", "src/rfsed/synrf.py:synrf.run_deconvolution"]}
{"id": "C86", "title": "Data made by a model of the grid are explained", "statement": "If the stacked data equal, in the comparison window, the synthetic of some model of the grid, the smallest misfit reported is 0, the model reported for it reproduces the data, and is that model when no other model of the grid does; the best correlation is 1 when the data are not constant. If moreover the phase criterion is largest for equal signs, the weights are not negative, that of the misfit is positive, they sum to 1, and some model has a misfit, the best overall goodness of fit is 1 and its model reproduces the data. The parallel version reports the same for every number of processes and schedule.", "quantifier": "all data, grids, windows, synthetic generators, weights, numbers of processes, schedules", "why_tests_cant": "exact recovery must hold for every grid, model and data set; a test has one grid and one target", "anchors": ["src/rfsed/WaveformFitting.py:WaveformFitting", "src/rfsed/WaveformFittingMultiproc.py:run_waveformfitting", "src/rfsed/WaveformFittingMultiproc.py:plotbestmodel"]}
{"id": "C87", "title": "The synthetics of the waveform fitting, and a slowness that is too large", "statement": "For solid layers, the synthetic compared with the data for a model of the grid is, at subcritical slowness, the iterative deconvolution of the radial by the vertical surface motion of the sediment, crust and mantle model, band-passed twice (0.05-1.25 Hz). For a slowness beyond the critical one of the sediment, crust or mantle it is a trace of zeros; then all models get the same misfit and phase criterion and a NaN correlation, nothing is raised because of it, and all four criteria report the first Vp/Vs and depth of the grid. The same holds for the parallel version, for every number of processes and every schedule.", "quantifier": "all models, grids, data, slownesses, samplings, length-preserving band-passes, weights", "why_tests_cant": "ranges over all models and slownesses and refers to the solution of the wave equation", "anchors": ["src/rfsed/WaveformFitting.py:WaveformFitting", "src/rfsed/synrf.py:synrf.run_fwd", "src/rfsed/synrf.py:synrf.run_deconvolution", "src/rfsed/WaveformFittingMultiproc.py:plotbestmodel"]}
{"id": "C88", "title": "Example data and output directories", "statement": "Whatever the order, number and outcome of calls of the six save_... functions, nothing that exists is changed and rfMoho_example, rfSed_example and read_raw_waveform_data return or raise what they did before. A stream written as 00_eq_data.h5 to the directory save_IRIS_waveform returns is what read_raw_waveform_data reads; nothing written elsewhere in the six directories is read by the three functions, and catalog_example does not name the file in the directory of save_catalog. rfMoho_example, rfSed_example and read_raw_waveform_data return what read_rf makes of data/rfstreams_Moho/rfstreams.h5, data/rfstreams_Sed/rfstreams.h5 and examples/IRIS_Downloaded_Waveform/00_eq_data.h5 of the package, and raise FileNotFoundError if that file is missing.", "quantifier": "all file systems, package directories, sequences of calls, file contents", "why_tests_cant": "frame conditions over all file systems and call sequences", "anchors": ["src/rfsed/util.py:rfMoho_example", "src/rfsed/util.py:rfSed_example", "src/rfsed/util.py:read_raw_waveform_data", "src/rfsed/util.py:catalog_example", "src/rfsed/util.py:save_IRIS_waveform"]}
{"id": "C89", "title": "The H-k delay times are those of the synthetic seismograms", "statement": "For a stack of elastic layers over a half-space and a slowness below all critical slownesses, the surface motion the forward modelling computes is, at every non-zero frequency, a reverberation filter (periods 2HP, H(P+S), 2HS, 2H(P+S) per layer, with a non-zero direct term) applied to pulses whose arrival times after the direct P wave are the sums, one term per layer, of 0, tPs, tPpPs, tPsPs. The amplitudes depend on the materials and the slowness alone, so thicknesses act only through those times; filter and travel time cancel in the ratio of the components. For one layer the times are exactly those hk, hkYu and hkSynth read at (K = Vp/Vs), for sediment over crust those of hkSeq and hkYu; none precedes the direct P wave.", "quantifier": "all numbers of layers, velocities, densities, thicknesses, sub-critical slownesses, non-zero frequencies, sampling intervals and lengths", "why_tests_cant": "connects two independent pieces of code (stacking delays and the Haskell matrices) over a continuum of models and all numbers of layers; amplitudes of single phases cannot be read off from one run", "anchors": ["src/rfsed/synrf.py:haskell", "src/rfsed/hkZhu.py:hk", "src/rfsed/hkSeqYeck.py:hkSeq"]}
{"id": "C90", "title": "Receiver functions do not depend on gains or on the unit of time", "statement": "Deconvolution (iterative or water level, any keyword arguments) of a numerator multiplied by a and a denominator multiplied by b (both non-zero, any sign) gives the receiver function multiplied by a/b, with the same misfits, number of iterations and exceptions; a common gain changes nothing. Measuring time in another unit (dt and preonset times s, Gaussian width parameter divided by s) divides the receiver function by s, or leaves it unchanged if it is normalised (water level).", "quantifier": "all traces, gains, units, options, including calls that raise", "why_tests_cant": "holds for all traces and factors, through the greedy loop with its data dependent choices and stopping rule, whose first test compares an absolute energy with a percentage", "anchors": ["src/rfsed/synrf.py:deconv_iterative", "src/rfsed/synrf.py:deconv_waterlevel", "src/rfsed/synrf.py:RFTrace"]}
{"id": "C91", "title": "Changing the search grid", "statement": "Two searches of hk, hkSeq, hkYu, hkSynth or hkSeqSynth that differ only in the grid, one grid containing the other: the table of the coarse search is exactly the part of the fine table that lies on the coarse grid (values at common (H, K) points are identical, whatever spacing, order or duplicates), the best stack value never decreases by refining, the best model of the fine grid is also optimal on the coarse one when it lies on it, and hk on a part of a grid it handled raises nothing new. In the sequential variants this holds for the sediment stage, and for the Moho stage when the sediment grid is the same.", "quantifier": "all streams, header contents, nested pairs of grids and option values; floating point included", "why_tests_cant": "every pair of nested grids, of any size and spacing, for all data", "anchors": ["src/rfsed/hkZhu.py:hk", "src/rfsed/hkSeqYeck.py:hkSeq", "src/rfsed/hkYu.py:hkYu", "src/rfsed/SynthAnalysis.py:hkSynth", "src/rfsed/SynthAnalysis.py:hkSeqSynth"]}
{"id": "C92", "title": "Stacks of several data sets add up", "statement": "Without the pre-stack option, hk on two streams taken together gives at every grid point the sum of the two stack values (same time axis), succeeds whenever both parts do, and returns the common best model if both parts have the same one; repeating the whole stream m times multiplies the table by m and keeps the best model. hkSynth of the sum of two receiver functions gives the sum of the tables.", "quantifier": "all pairs of streams on one time axis, all m, grids, weights, velocities, slownesses (post-critical included)", "why_tests_cant": "all ways to split a data set, all sizes", "anchors": ["src/rfsed/hkZhu.py:hk", "src/rfsed/SynthAnalysis.py:hkSynth"]}
{"id": "C93", "title": "Stack values are linear in the weights", "statement": "For each search there are three tables (one per phase, independent of the weights) such that every choice of real weights w1, w2, w3 succeeds and gives w1 times the first plus w2 times the second plus w3 times the third; multiplying all weights by a common positive factor scales the table and keeps the best model. In the sequential variants this holds for each stage with the other stage's weights fixed (other sediment weights can move the samples the Moho stage reads, so that there success is for data as long as the time axis; a common factor of the sediment weights leaves the Moho stage as it is), the Moho table being the combination with negative values set to zero and its best model the maximum of the unclipped combination.", "quantifier": "all weights (any sign), data, grids, velocities and header contents for which one choice of weights succeeds", "why_tests_cant": "a continuum of weights", "anchors": ["src/rfsed/hkZhu.py:hk", "src/rfsed/SynthAnalysis.py:hkSynth", "src/rfsed/SynthAnalysis.py:hkSeqSynth", "src/rfsed/hkYu.py:hkYu", "src/rfsed/hkSeqYeck.py:hkSeq"]}
{"id": "C94", "title": "Only the samples between P and the latest multiple matter", "statement": "If two versions of a stream agree sample by sample (relative to the P wave) from half a sampling interval before P to half a sampling interval after 2 H K / Vp for the largest grid values, hk (without pre-stacking) and hkSynth give the same table and the same best model, whatever the versions contain elsewhere and whatever their lengths and pre-onset times; in particular padding or cutting the records with the pre-onset time adjusted has no effect. The same holds for hkSeq (without pre-stacking) and hkSeqSynth, with the sediment's 2 H K / Vp added in the Moho stage, and for hkYu, with the two-way time tlag added.", "quantifier": "all records, lengths, aligned pre-onset times, sampling intervals, grids with H >= 0 and K >= 1, sub-critical slownesses, weights", "why_tests_cant": "universal over the contents of the records outside the window and over tie cases of the nearest sample", "anchors": ["src/rfsed/hkZhu.py:hk", "src/rfsed/hkZhu.py:getamp", "src/rfsed/SynthAnalysis.py:hkSynth", "src/rfsed/hkSeqYeck.py:hkSeq", "src/rfsed/SynthAnalysis.py:hkSeqSynth", "src/rfsed/hkYu.py:hkYu"]}
{"id": "C95", "title": "Noise in the data", "statement": "Changing every data sample by at most e changes every stack value of hk (without pre-stacking) by at most N(|w1|+|w2|+|w3|)e for N traces, and of hkSynth and hkYu by at most (|w1|+|w2|+|w3|)e; a best model that wins over all other grid points by more than twice this bound stays the best model. For hkSeq and hkSeqSynth the same holds of the sediment stage and, if the sediment model wins by that margin, of the crustal stage too. With stack=True the same bounds hold for hk and hkSeq, with e the largest change of a sample of the stacked traces.", "quantifier": "all records, noise realisations with |noise| <= e, grids, weights, layers, P velocities", "why_tests_cant": "universal over the noise; a simulation only samples it", "anchors": ["src/rfsed/hkZhu.py:hk", "src/rfsed/SynthAnalysis.py:hkSynth", "src/rfsed/hkYu.py:hkYu"]}
{"id": "C96", "title": "H-k stacking does not depend on units", "statement": "If lengths are multiplied by a > 0, times by b > 0, velocities by a/b and slownesses by b/a, then hk, hkSynth, hkYu, hkSeqSynth and hkSeq succeed again and return the table with the thicknesses multiplied by a and unchanged velocity ratios and stack values, the same best model, and (hkYu) the sediment thickness multiplied by a and the P delay by b.", "quantifier": "all factors, streams, grids, weights, velocities (explicitly given), slownesses including post-critical ones, pre-stacking or not", "why_tests_cant": "universal over real factors and inputs; floating-point tests can only compare approximately", "anchors": ["src/rfsed/hkZhu.py:hk", "src/rfsed/SynthAnalysis.py:hkSynth", "src/rfsed/SynthAnalysis.py:hkSeqSynth", "src/rfsed/hkYu.py:hkYu", "src/rfsed/hkSeqYeck.py:hkSeq"]}
{"id": "C97", "title": "Resonance filtering does not depend on the unit of time", "statement": "Multiplying sampling interval and pre-onset time by b > 0 leaves filtered receiver function, filter, autocorrelation and strength unchanged and multiplies lag and time axis by b, for real and synthetic data; followed by hkYu in the new units the same best model and thicknesses (in the new unit of length) result.", "quantifier": "all streams, records, sampling intervals, factors, grids and velocities", "why_tests_cant": "universal over factors and data", "anchors": ["src/rfsed/ReverbFilter.py:ResonanceFilt", "src/rfsed/SynthAnalysis.py:ResonanceFilt", "src/rfsed/hkYu.py:hkYu"]}
{"id": "C98", "title": "The reverberation estimate depends only on the autocorrelation", "statement": "Two records of equal length and sampling interval whose detrended data have proportional autocorrelations get the same autoc, r and tlag; in particular a record played backwards gets the same autoc, r and tlag.", "quantifier": "all records and lengths", "why_tests_cant": "universal over records", "anchors": ["src/rfsed/ReverbFilter.py:ResonanceFilt", "src/rfsed/SynthAnalysis.py:ResonanceFilt"]}
{"id": "C99", "title": "The waveform fit reads only the first 25 s; gain and baseline do not move its correlation and phase answers", "statement": "Two streams with the same sampling whose stacked traces have the same length and agree at the times 0 <= t <= 25 s - delta give WaveformFitting the same solutions, the same printed best models or the same exception, and run_waveformfitting the same possible outcomes. Replacing the stacked data d by a*d + b (a != 0, data and synthetics not constant) multiplies every correlation by the sign of a, so with a > 0 the best model by correlation is the same; multiplying every sample by a positive factor leaves the best model by the phase criterion the same.", "quantifier": "every stream, stack, grid, weights, gain, baseline, number of processes and schedule", "why_tests_cant": "relation between two runs over all inputs", "anchors": ["src/rfsed/WaveformFitting.py:WaveformFitting", "src/rfsed/WaveformFittingMultiproc.py:WaveformFit_multiproc"]}
{"id": "C100", "title": "Exactly when the waveform fit succeeds", "statement": "For data with a stack and a positive sampling interval, WaveformFitting returns a result if and only if some sample of the first trace is at time 0, both grids are non-empty, and for every model of the grid the synthetic can be computed, has as many samples as the data in the fitted window (at least one), and the phase criterion can be computed. The weights and the quality of the fit never matter for this. The parallel version prepares its parameters and gets a result for every depth under exactly the same conditions, whatever the number of processes and the schedule. After either version its four figures are drawn if the first trace has an onset (for the serial version: preonset after the start) and the drawing itself does not fail.", "quantifier": "every stream, grid, weights and behaviour of the forward modelling, number of processes and schedule", "why_tests_cant": "equivalence over all inputs", "anchors": ["src/rfsed/WaveformFitting.py:WaveformFitting", "src/rfsed/WaveformFittingMultiproc.py:WaveformPara", "src/rfsed/WaveformFittingMultiproc.py:run_waveformfitting", "src/rfsed/WaveformFittingMultiproc.py:plotbestmodel"]}
{"id": "C101", "title": "Enlarging the waveform-fitting grid keeps each model's criteria, but not the overall ranking", "statement": "On a larger grid (each axis a superset) every model of the old grid keeps its correlation, misfit and phase criterion, the best correlation and phase criterion do not decrease and the best misfit does not increase. The overall goodness of fit of old models is unchanged when the new models exceed none of the three largest values; otherwise even the overall best among the old models can change: adding a model worse in every criterion can replace the reported overall best model by another old one. The positive statements hold in the same form for the parallel version, for all numbers of processes and schedules of the two runs.", "quantifier": "every stream, forward model, pair of nested grids and weights", "why_tests_cant": "relation between two runs over all grids", "anchors": ["src/rfsed/WaveformFitting.py:WaveformFitting", "src/rfsed/WaveformFittingMultiproc.py:plotbestmodel"]}
{"id": "C102", "title": "More events, more files, longer windows", "statement": "With an output format that keeps everything: extracting part of a catalogue gives a subsequence of extracting all of it; extracting the two parts of a catalogue separately gives the same traces with the same onsets as extracting it at once; adding data files only adds traces (the old ones stay, in the same order); asking for more time before and after the onset never brings in an event that the shorter window did not have. The multiprocess extraction of part of the events from part of the files gives a subsequence of the full one, for every number of processes and schedule.", "quantifier": "every file system, catalogue, station, window pair, cutting and travel-time behaviour, number of processes and schedule; for the longer windows the conversion of times to nanoseconds and their rounding are monotone", "why_tests_cant": "relation between two or three runs over all inputs", "anchors": ["src/rfsed/ExtractEq.py:ExtractEq", "src/rfsed/ExtractEqMultiproc.py:ExtractEq_Multiproc"]}
{"id": "C103", "title": "Receiver functions depend on relative, not absolute, arrival times", "statement": "Delaying both components by the same number of samples (zeros in front instead of behind, same window length) leaves the iterative deconvolution unchanged: receiver function, misfits, number of iterations and any exception. The water-level receiver function is unchanged too, and so is its misfit if the window length is a power of two. Delaying only the numerator by k samples gives the water-level receiver function for a preonset longer by k samples.", "quantifier": "all traces, delays, sampling intervals, window options, preonsets, filter widths, water levels, iteration limits, phases and method names", "why_tests_cant": "A test compares one pair of windows; the claim is an identity over all traces and all delays, through FFT, filters and a data-dependent loop.", "anchors": ["src/rfsed/synrf.py: deconv_iterative", "src/rfsed/synrf.py: deconv_waterlevel", "src/rfsed/synrf.py: RFTrace.deconvolve", "src/rfsed/synrf.py: gfilter", "src/rfsed/synrf.py: correl"]}
{"id": "C104", "title": "Exactly when the stacking functions return a result", "statement": "With traces of equal length (hk) or arrays at least as long as the time axis (the others) and a figure that can be drawn, hk, hkSynth, hkYu, hkSeq and hkSeqSynth return a result if and only if: streams can be stacked, the time axis and every grid are non-empty, the required header fields are present (onset and slowness of every trace in hk and in the sediment stream; of the Moho stream the onset of the first trace only and the slowness of all), every velocity in use can be divided by (it is a numpy float or not zero; defaults are used for None where they exist), and the arguments without defaults are given (VsSed and all weights in hkYu; VpMoho and the Moho weights in the sequential variants). No value in the data or the grids, and no ray parameter whose square is a representable number, can make them fail.", "quantifier": "all streams, data, grids, velocities (present or None), weights (present or None), ray parameters, number kinds and number types", "why_tests_cant": "An equivalence over all inputs: a test shows success or failure for one call, not that no other input fails.", "anchors": ["src/rfsed/hkZhu.py:hk", "src/rfsed/SynthAnalysis.py:hkSynth", "src/rfsed/SynthAnalysis.py:hkSeqSynth", "src/rfsed/hkYu.py:hkYu", "src/rfsed/hkSeqYeck.py:hkSeq"]}
{"id": "C105", "title": "Rounding errors of the stacking are bounded and cannot change a clear winner", "statement": "In floating-point arithmetic with unit roundoff u (2^-53 for doubles; no overflow or underflow), every stack value returned by hk and hkSynth is, up to a relative error (1+u)^(N+3)-1 of the sum of absolute values, the weighted sum of data samples read at times that are nearest to the exact Zhu-Kanamori delay times up to 40u times (axis length + sensitivity of the delay time); if every exact delay time has a clearly nearest sample, the table differs from the one computed in exact arithmetic by at most that bound, and a best model that wins by more than twice the bound in exact arithmetic is the best model reported. With stack=True the same holds for the stacked receiver function and the exact mean slowness, where the roundoff of the delay times is that of the accumulated mean, (1+u)^(n+5)-1 for n traces.", "quantifier": "all rounding functions with relative error u <= 1/1000, all streams, grids, weights and velocities that are pre-critical by more than rounding can destroy", "why_tests_cant": "a test compares two particular floating-point runs; the bound must hold for every input and every accumulation of rounding errors", "anchors": ["src/rfsed/hkZhu.py:hk", "src/rfsed/hkZhu.py:getamp", "src/rfsed/SynthAnalysis.py:hkSynth"]}
{"id": "C106", "title": "The gain of the data does not matter, bit for bit", "statement": "Multiplying all receiver functions by one positive factor (exact arithmetic) or by one power of two (binary floating point, no overflow or underflow) gives the same outcome of hk, hkSynth, hkYu, hkSeq and hkSeqSynth, exceptions included: the same best models, thicknesses and velocity ratios, and stack values (also after clipping) multiplied by exactly that factor.", "quantifier": "all inputs, options and gains of all five stacking functions, all number types", "why_tests_cant": "quantifies over all data, all gains and all rounding behaviours", "anchors": ["src/rfsed/hkZhu.py:hk", "src/rfsed/hkYu.py:hkYu", "src/rfsed/hkSeqYeck.py:hkSeq", "src/rfsed/SynthAnalysis.py:hkSynth", "src/rfsed/SynthAnalysis.py:hkSeqSynth"]}
{"id": "C107", "title": "Axes and shaded ranges of the H-k figures", "statement": "In every figure saved by an H-k plotting function all grid points and the cross of the best model lie inside the axes of the contour panel, and the axes end at grid points. In a figure of several receiver functions the three shaded ranges extend 0.5 s (Moho) or 0.1 s (sediment) to both sides of the delay times of the LAST trace: a marker of another trace lies inside exactly when its time differs from that of the last trace by at most this much, and it can lie far outside.", "quantifier": "every H-k result of every stacking variant, all grids, streams, slownesses, velocities, gains, flags and file formats; both figures of the sequential functions, also when the second one fails", "why_tests_cant": "ranges over all grids and streams; tests do not look into figures", "anchors": ["src/rfsed/hkZhu.py: plothk", "src/rfsed/hkYu.py: plothkYu", "src/rfsed/hkSeqYeck.py: plotSeqhk", "src/rfsed/SynthAnalysis.py: plothkSynth", "src/rfsed/SynthAnalysis.py: plothkSeqSynth"]}
{"id": "C108", "title": "Extractions that are killed can be repeated", "statement": "Wherever ExtractEq or ExtractEq_Multiproc is killed, no file but the output file has changed, and the output file of ExtractEq has changed only if all reading had succeeded and there was something to write. If the output file is neither a data file nor the catalogue, then after any number of killed, failed or finished attempts one more call has the outcome an undisturbed call would have had and on success leaves the same files; if it is among the data files this can fail for good. Two extractions neither of which reads the other's output can be run in either order.", "quantifier": "all file systems, arguments, crash points, numbers of attempts, processes and schedules", "why_tests_cant": "crash points and histories of attempts cannot be enumerated", "anchors": ["src/rfsed/ExtractEq.py:ExtractEq", "src/rfsed/ExtractEqMultiproc.py:ExtractEq_Multiproc"]}
{"id": "C109", "title": "Killed workers never cost results silently", "statement": "If a worker process of a parallel run is killed while it holds a chunk of the inputs, the parallel map never returns (it waits for ever): no function built on it gets a list with missing or wrong results, and nothing is written. A map that does return lost nothing, so its results are those of C46 also when workers may be killed.", "quantifier": "all numbers of processes, inputs, schedules and moments of death", "why_tests_cant": "moments of death and schedules cannot be enumerated", "anchors": ["src/rfsed/ExtractEqMultiproc.py:ExtractEq_Multiproc", "src/rfsed/ExtractEqMultiproc.py:Get_Eqtimes_multiproc", "src/rfsed/WaveformFittingMultiproc.py:run_waveformfitting"]}
{"id": "C110", "title": "Iterative deconvolution finds the receiver function", "statement": "If the numerator is the denominator convolved with a spike train on admissible lags and the low-passed denominator has power at all frequencies, the misfits fall at least geometrically, the receiver function returned differs from the true one (low-passed and shifted) by at most an explicit geometrically decreasing amount, by an amount proportional to minderr if the stopping rule ended the iterations, and by as little as one likes with minderr=0 and enough iterations. (The statements about the receiver function returned assume that the pre-onset shift in samples is not an odd multiple of a quarter of the FFT length.)", "quantifier": "all traces, sampling intervals, Gaussian widths, spike trains, phases and iteration limits", "why_tests_cant": "convergence is a statement about all signals and arbitrarily many iterations", "anchors": ["src/rfsed/synrf.py:deconv_iterative"]}
{"id": "C111", "title": "Installing over whatever is there", "statement": "install_examples(path) and install_rfsed_tests(path) succeed exactly when nothing stands in the way - no file on the way to the destination or where the copied tree has a directory, and no directory at the place a file must go to - and raise DistutilsFileError otherwise. A directory standing where the tree has a file receives the file under the file's own name. Successful or not, they only create directories of the tree (and the way to the destination) and write files of the tree: no directory disappears, no other file changes. If examples cannot be installed, data is left alone. A package whose directory is missing (a file stands there) raises and changes nothing.", "quantifier": "all file systems, all remembered directories that are still there, all source trees with distinct names, all destinations", "why_tests_cant": "the contents of the destination are unbounded; every combination of files and directories in the way matters", "anchors": ["src/rfsed/util.py: install_examples, install_rfsed_tests (distutils.dir_util.copy_tree)"]}
{"id": "C112", "title": "Exactly when deconvolution and resonance filtering succeed", "statement": "deconv_iterative (minderr >= 0) returns a result exactly when both traces have the same length, dt != 0, nt (if given) is that length or the traces have a single sample (which is then repeated nt times), and the number of samples deconvolved is at least 3, or is 2 and phase is not 'P', no iteration is allowed, or the numerator is zero. deconv_waterlevel returns exactly for traces of equal length >= 2 and dt != 0. ReverbFilter.ResonanceFilt returns exactly when the stream has a first trace with delta != 0 and stacking gives a non-empty trace, and otherwise raises IndexError, the error of stacking, or ZeroDivisionError; the synthetic version exactly for non-empty data and a time axis of two samples or more. The resonance plots save nothing and raise ValueError when the time axis does not have the length of the data, and otherwise save the three figures in turn, keeping those before the first that cannot be saved.", "quantifier": "all traces, streams, sampling intervals, lengths, parameters and results; all outcomes of stacking and of saving a figure", "why_tests_cant": "an equivalence covers every argument combination, including the degenerate ones nobody thinks of", "anchors": ["src/rfsed/synrf.py:deconv_iterative", "src/rfsed/synrf.py:deconv_waterlevel", "src/rfsed/ReverbFilter.py:ResonanceFilt", "src/rfsed/ReverbFilter.py:plotfiltrf", "src/rfsed/SynthAnalysis.py:ResonanceFilt", "src/rfsed/SynthAnalysis.py:plotfiltSynthrf"]}
{"id": "C113", "title": "Noise in deconvolution", "statement": "Let the numerator be the denominator convolved with a spike train q plus noise e. Iterative deconvolution (spikes at admissible lags, denominator with power >= mu at all frequencies after the low-pass, minderr >= 0): as long as the residual has at least four times the energy of the noise each iteration reduces it by a fixed factor < 1, and once below it stays below; any misfit r returned bounds the error of the receiver function: the sum of squared differences from q low-passed and shifted is at most (sqrt(r*energy of the numerator)+sqrt(energy of e))^2/(dt^2 mu); if the iterations stopped by minderr the error is bounded by minderr and the noise; with minderr=0 and enough iterations and noise that is not zero it is at most 9*energy(e)/(dt^2 mu). Water-level deconvolution is linear in the numerator; two numerators give receiver functions whose difference has at most the energy of their difference over dt^2*wlevel*max|W|^2; without bins below the water level and preonset a whole number of samples it returns q low-passed and shifted exactly (no noise) or up to energy(e)/(dt^2*wlevel*max|W|^2). (The statements about the receiver function returned assume that the pre-onset shift in samples is not an odd multiple of a quarter of the FFT length.)", "quantifier": "all traces, noise, spike trains, sampling intervals, parameters and numbers of iterations", "why_tests_cant": "the bounds are over all noise and all spike trains; a test has one noise realisation and cannot show that no other is amplified more", "anchors": ["src/rfsed/synrf.py:deconv_iterative", "src/rfsed/synrf.py:deconv_waterlevel"]}
{"id": "C114", "title": "Noise in the stacked receiver function moves the waveform fit by a bounded amount", "statement": "Run the waveform fit twice with the same grid and settings on two stacked records of the same sampling and length that differ by noise of root mean square eps over the fitted window. Every misfit changes by at most eps, every correlation (of records and synthetics that are not constant in the window) by at most 2 eps divided by the standard deviation of the first record, no phase criterion changes if the noise is smaller than the signal at every sample, and every goodness of fit changes by at most an explicit bound; the best model by any of these is the same whenever it beats all others by more than twice the bound. If the record is a noisy copy of the synthetic of a model of the grid, the best misfit is at most eps, the synthetic of the model found is within 2 eps of the true one, the true model is found when all other synthetics are farther than 2 eps from its own, and the best correlation is at least 1 - eps^2/(2 s s').", "quantifier": "all pairs of streams, grids, weights, noise amplitudes, synthetic generators and phase criteria; all worker counts and schedules for the parallel recovery statement", "why_tests_cant": "the bound must hold for every noise realisation and every grid", "anchors": ["src/rfsed/WaveformFitting.py:WaveformFitting", "src/rfsed/WaveformFittingMultiproc.py:run_waveformfitting, plotbestmodel"]}
{"id": "C115", "title": "Noise in the record moves the resonance filter by a bounded amount", "statement": "Filter two records, not straight lines, of the same length and sampling interval that differ by noise of root mean square eps. Every value of the normalised autocorrelation moves by at most 4 eps/s, with s the standard deviation of the detrended first record. If the first trough of the autocorrelation is clear (each step down to it and the step up after it larger than twice that), the two-way delay reported is the same, the reported strength moves by at most 4 eps/s, and the filtered receiver function by at most 6 eps in root mean square. In the modified H-k stacking that follows, the sediment thickness is then the same, the stack values move by a bounded amount, and the best model is the same if its lead exceeds twice that.", "quantifier": "all pairs of records, sampling intervals and noise; all grids, velocities and weights for the stacking", "why_tests_cant": "the bound must hold for every noise realisation", "anchors": ["src/rfsed/ReverbFilter.py:ResonanceFilt", "src/rfsed/SynthAnalysis.py:ResonanceFilt", "src/rfsed/hkYu.py:hkYu"]}
{"id": "C116", "title": "Rounding errors cannot change the answer of the sediment-corrected stackings", "statement": "Run in floating-point arithmetic, hkYu, hkSeq and hkSeqSynth read, for every grid point, samples that are nearest to the exact (shifted or summed) delay times up to a stated multiple of the unit roundoff, and each stack value is the weighted sum of these samples up to the relative error of four operations; hkYu's reported P delay is exact up to a few roundings. If the exact times of every grid point have clearly nearest samples, the tables differ from those of exact arithmetic by at most that relative error, and best models (sediment and Moho) that win by more than twice this amount in exact arithmetic are the ones reported in floating point. With stack=True hkSeq does the same for the stacked receiver function and the exact mean slowness, where the roundoff of the delay times is that of the accumulated mean, (1+u)^(n+5)-1 for n traces.", "quantifier": "all streams or records, time axes, grids, velocities, weights, slownesses and all roundings with unit roundoff at most 1/1000 whose errors are relative (no overflow or underflow)", "why_tests_cant": "a test observes one machine's rounding on one data set; the claim bounds the error for all inputs and all rounding behaviours", "anchors": ["src/rfsed/hkYu.py:hkYu", "src/rfsed/hkSeqYeck.py:hkSeq", "src/rfsed/SynthAnalysis.py:hkSeqSynth"]}
{"id": "C117", "title": "Missing samples (NaN) in the data decide the answer", "statement": "For hk, hkSynth, hkYu, hkSeq and hkSeqSynth, numeric weights and times and a ray parameter below the critical slownesses: the stack value of a grid point is NaN if and only if one of the samples the point reads (nearest to its three arrival times, in any of the traces summed) is NaN, also if that phase has weight 0. If the value of any grid point is NaN, the reported best model is the first grid point whose value is NaN, however large the other values; hkSeq's Moho stage then uses the thickness and Vp/Vs of that sediment, and removing negative values from the Moho table keeps the NaNs. NaN samples that no grid point reads have no effect on which values are NaN.", "quantifier": "all streams, records, grids, weights (including 0), positions of the NaN samples and grid points below the critical slownesses", "why_tests_cant": "tests use complete data; the effect depends on where the missing samples lie relative to the arrival times of every grid point", "anchors": ["src/rfsed/hkZhu.py: hk, getamp", "src/rfsed/SynthAnalysis.py: hkSynth, hkSeqSynth", "src/rfsed/hkYu.py: hkYu", "src/rfsed/hkSeqYeck.py: hkSeq"]}
{"id": "C118", "title": "A wrong P velocity shifts H and Vp/Vs in a known direction", "statement": "For one ray parameter and any two assumed P velocities at which P propagates, each layer (H, K) of the first velocity has exactly one layer (H', K') of the second with the same Ps and PpPs delay times, and its PsPs time agrees too: H' = H*eta(V)/eta(V') and K' = V'*sqrt(p^2 + (etaS*eta(V')/eta(V))^2). hkSynth, hk (all traces with one ray parameter, or stack=True), hkYu, hkSeqSynth and hkSeq return, for the other velocity and the corresponding grid, the same stack values in the same order and the corresponding best model, so no stack can tell the velocities apart; the Moho result of the sequential stacking does not depend on the velocity assumed for the sediment. If the assumed velocity is too high (H > 0, K > 1) the thickness is too large and Vp/Vs too small, unless incidence is vertical, where Vp/Vs is right and H is wrong by the same factor as the velocity.", "quantifier": "all ray parameters, velocities below the critical ones, grids, weights, records and streams", "why_tests_cant": "a relation between two runs for every velocity, grid and data set; tests use one velocity", "anchors": ["src/rfsed/hkZhu.py: hk", "src/rfsed/SynthAnalysis.py: hkSynth, hkSeqSynth", "src/rfsed/hkYu.py: hkYu", "src/rfsed/hkSeqYeck.py: hkSeq"]}
{"id": "C119", "title": "What the Ps phase alone can tell", "statement": "For one ray parameter every thickness explains a given Ps delay with exactly one velocity ratio, so that hk with stacking and with weights (w1,0,0) gives the same stack value to every grid point (H', K') on that curve: the table has a ridge and no separate peak. Without stacking grid points with the same Ps times for every trace have the same value. The Ps delays of two different ray parameters, on the other hand, determine thickness and velocity ratio uniquely.", "quantifier": "every velocity, thickness, velocity ratio above one, pair of ray parameters for which P propagates; every stream, grid and first weight", "why_tests_cant": "uniqueness and the tie along a curve are statements about a continuum of models", "anchors": ["src/rfsed/hkZhu.py: hk"]}
{"id": "C120", "title": "H-k stacking recovers the layer to within the sampling interval", "statement": "If every receiver function shows the Ps, PpPs and PpSs+PsPs arrivals of a layer (H0, K0) with amplitudes A, A and -A at the samples nearest to its delay times, and is within e of that everywhere, if 2*N*(w1+w2+w3)*e < min(w1,w2,w3)*A for N traces, if the delay times of the layer and of the grid are inside the record and if at least one grid point has the layer's samples, then the reported best model (H, K) satisfies 2|H-H0|*eta_P <= 3 dt (2 dt as soon as the P two-way time of the model exceeds one sample) and 2|H*eta_S - H0*eta_S0| <= dt for every trace, hence |H-H0| <= 1.5 dt/eta_P and |K-K0| <= Vp/H*(1/2 + 3/2*eta_S0/eta_P)*dt. The same holds for the stacked record of hk(stack=True), for hkSynth, for hkYu (times after the reverberation correction), and for the sediment stage of hkSeq and hkSeqSynth; their crustal thickness inherits the error of the sediment stage and satisfies 2|H-H0|*eta_P <= 6 dt.", "quantifier": "all streams, records with any disturbance below the threshold, grids, weights, velocities, layers and sampling intervals", "why_tests_cant": "A test can check a few synthetic layers and noise realisations; the bound is for every layer, grid and disturbance.", "anchors": ["src/rfsed/hkZhu.py:hk", "src/rfsed/hkYu.py:hkYu", "src/rfsed/hkSeqYeck.py:hkSeq", "src/rfsed/SynthAnalysis.py:hkSynth", "src/rfsed/SynthAnalysis.py:hkSeqSynth", "src/rfsed/util.py:getamp"]}
{"id": "C121", "title": "Errors in the sediment pass into the Moho by a known amount", "statement": "Suppose the sediment stage of hkSeq or hkSeqSynth yields, instead of the true sediment, one whose one-way P time differs by dP and one-way S time by dS (true minus assumed). Then the only crust below the assumed sediment with the true Ps, PpPs and PsPs Moho times has thickness H + dP/eta and Vp/Vs = Vp*sqrt(p^2 + ((H*etaS + dS)/(H + dP/eta))^2), where eta and etaS are the vertical slownesses of the true crust; it exists as long as something is left for the crust. With a sediment slower than the crust, an overestimated sediment thickness makes the crust too thin by more than the error, so even the total depth is underestimated, and the reverse for an underestimated one. In hkSeq (with and without stacking the traces) and hkSeqSynth two Moho grid points whose Ps and PpPs times agree under the two sediments get the same stack value, whatever the sediment data, grids and weights were. In hkYu a wrong pair of sediment velocities changes the crust only through VsSed/VpSed: the matching candidate has H' = H + tlag/2*(VsSed/VpSed - VsSed'/VpSed')/eta and the same stack value; with the ratio unchanged the table, the index and the reported crust are identical and SedThick scales with VsSed.", "quantifier": "all ray parameters at which P waves propagate in both layers, all true and assumed sediments, all crusts, all streams, grids, weights and both stacking modes (exact real arithmetic)", "why_tests_cant": "a test fixes one wrong sediment; the closed form, its uniqueness and the equality of stack values hold for every pair of sediments, every crust and every record", "anchors": ["src/rfsed/hkSeqYeck.py:hkSeq", "src/rfsed/SynthAnalysis.py:hkSeqSynth", "src/rfsed/hkYu.py:hkYu"]}
{"id": "C122", "title": "The waveform-fitting window in floating-point arithmetic", "statement": "WaveformFitting and WaveformPara find the P onset with an exact floating-point equality. In arithmetic rounded to nearest they get past it exactly if some sample index i satisfies delta*i == preonset after rounding, and raise IndexError otherwise. If delta is the rounded interval of f samples per second with relative error in (-2^-54, 2^-54] (true of 10, 20, 25, 40, 50, 100, 125 and 200 samples per second in double precision) and preonset is a whole number N of seconds (the documented type), rounding does no harm: the only index found is N*f, int(25/delta) is 25*f, every grid point is judged on the samples N*f .. (N+25)*f - 1 of the stacked and the synthetic receiver function, and the fit succeeds whenever the synthetics have the right length and pg succeeds. Otherwise it can do harm: in double precision 49 samples per second with 1 s before the onset, and 10 samples per second with 0.7 s, always raise IndexError although a sample lies at the onset. The deconvolutions' int(preonset/dt) is exact under the same conditions, and for 0.7 s and 10 samples per second it is 6 instead of 7.", "quantifier": "all roundings to nearest whatever their tie rule, all precisions, all streams of at most 2^52 samples, all sampling rates satisfying the condition, all whole preonset times, all grids and weights", "why_tests_cant": "whether delta*i == preonset holds after rounding depends on every pair (sampling rate, preonset); tests sample a few pairs, and the failing ones look no different from the working ones", "anchors": ["src/rfsed/WaveformFitting.py:WaveformFitting", "src/rfsed/WaveformFittingMultiproc.py:WaveformPara", "src/rfsed/synrf.py:phaseshift"]}
{"id": "C123", "title": "A wrong or averaged slowness shifts the answer in a known direction", "statement": "Giving a stacking function another ray parameter p' instead of p changes its table only by renaming grid points: thickness H becomes H*eta(p)/eta(p') and Vp/Vs becomes V*sqrt(p'^2 + (etaS(p)*eta(p')/eta(p))^2), with the same stack values and the same best index (hkSynth, hkYu, and both layers of hkSeqSynth); for a positive thickness and Vp/Vs this renamed layer is the only one with the same delay times. If p' is larger than p (0 <= p) the layer found is too thick and its Vp/Vs too low (K^2 - K'^2 = (p'^2-p^2)(K^2-1)/(1/V^2-p^2)). hk with stack=True uses the mean slowness for all traces: at every grid point it looks for Ps no later, and for both multiples no earlier, than the average over the traces of their own delay times, strictly so if the slownesses differ. If nevertheless every trace's delay times have the same nearest sample as those for the mean slowness and the stacked trace is the mean trace, stack=True and stack=False return the same table and the same best model.", "quantifier": "all ray parameters below the critical one, all velocities, thicknesses and Vp/Vs > 1, all records, grids and weights, streams with any number of traces and any slownesses", "why_tests_cant": "The direction of the error must hold for every pair of slownesses, every layer and every set of events; tests see a few numbers and cannot show that the corresponding layer is the only one, nor that the mean slowness errs in the same direction for every set of slownesses.", "anchors": ["src/rfsed/hkZhu.py:hk", "src/rfsed/hkYu.py:hkYu", "src/rfsed/SynthAnalysis.py:hkSynth", "src/rfsed/SynthAnalysis.py:hkSeqSynth"]}
{"id": "C124", "title": "The two sediment corrections agree up to the obliquity of the rays", "statement": "For every ray parameter, hkYu adds to the Ps, PpPs and PsPs delay times exactly the vertical-incidence delay times of a sediment of thickness SedThick and velocity ratio VpSed/VsSed. Compared with the sequential method's correction for the same sediment and a ray parameter p, its Ps correction is never larger and its multiples' corrections never smaller, by at most p^2*Vp*H, 2*p^2*Vp*H and 2*p^2*Vs*H seconds. Whenever the corrected times have the same nearest samples (always for vertical rays with that sediment), hkYu and the second stage of hkSeqSynth on the same record give the same best model, and the sequential table is hkYu's table with negative values set to zero. With a sediment of zero thickness the second stage of hkSeqSynth gives the table (clipped) and the best model of hkSynth.", "quantifier": "all records, time axes, grids, weights, velocities, reverberation periods and ray parameters below the critical one", "why_tests_cant": "the two methods are separate pieces of code with separate formulas; that they correct by the same amount must hold for every lag, velocity and ray parameter, and the size of the difference is a bound over a continuum", "anchors": ["src/rfsed/hkYu.py:hkYu", "src/rfsed/SynthAnalysis.py:hkSeqSynth", "src/rfsed/SynthAnalysis.py:hkSynth"]}
{"id": "C125", "title": "Which saved figures replace which", "statement": "Figures are saved under a name made of the folder, a stem and the format, so a later call silently replaces an earlier figure of the same name. For successful plotting calls with one folder and one format: plothk figures (same layer and component) replace each other exactly when the station names are equal; the Moho figure of plothk and the Moho figure of plotSeqhk of one station and component have the same name, so only the later of the two is left, while the sediment figures ('Sed', 'Sediment') never collide; every plothkYu figure replaces the previous one whatever station it is of; plothkSynth figures replace each other exactly when the layer is the same and never touch those of plothkSeqSynth; the three resonance-filter figures of any second result, real or synthetic, replace all three of the first; the four waveform-fitting figures have four different names, the serial and the parallel version use the same ones, so a later run replaces all four of the same station and none of another station.", "quantifier": "all inputs, results, gains, layers, stations, folders, formats and orders of the calls", "why_tests_cant": "a test saves a few figures with fixed names; the claim is about every pair of station, layer, folder and format strings, including names that contain the separators", "anchors": ["src/rfsed/hkZhu.py:plothk", "src/rfsed/hkSeqYeck.py:plotSeqhk", "src/rfsed/hkYu.py:plothkYu", "src/rfsed/SynthAnalysis.py:plothkSynth", "src/rfsed/SynthAnalysis.py:plothkSeqSynth", "src/rfsed/SynthAnalysis.py:plotfiltSynthrf", "src/rfsed/ReverbFilter.py:plotfiltrf", "src/rfsed/WaveformFitting.py:PlotWaveformFitting", "src/rfsed/WaveformFittingMultiproc.py:plotbestmodel"]}
{"id": "C126", "title": "Rounding errors cannot change which waveform model wins by more than a known margin", "statement": "In floating-point arithmetic with unit roundoff u and f samples per second, every misfit of WaveformFitting has a relative error of at most a = (1+u)^(25f+8)-1 and the model reported with the smallest misfit has an exact misfit that is smallest up to the factor (1+a)/(1-a); every correlation is within alpha = ((1+u)^(25f+5)-1)(4+4k) of the exact Pearson correlation when the fitted samples are at most k times as large as their standard deviation; obspy's pg gets the exact signs; every goodness of fit is within tau of the exact one, where tau is an explicit expression in u, f, alpha, the weights and the largest exact correlation; hence the reported overall best model is within 2 tau of the exact best, and is the exact best model if that one leads by more than 2 tau.", "quantifier": "all rounding functions that round to nearest with p+1 binary digits and u at most 1/1000, all traces, stacks and synthetics, all grids, all non-negative weights, all sampling rates and pre-onset times of C122", "why_tests_cant": "A test sees the rounding errors of the samples it runs; the bound is needed for every record, grid and rounding direction.", "anchors": ["src/rfsed/WaveformFitting.py:WaveformFitting"]}
{"id": "C127", "title": "A search grid finer than the sampling adds no information", "statement": "In hk and hkSeq (with and without stacking), hkSynth, hkYu and hkSeqSynth two grid points whose predicted arrivals have the same nearest samples get exactly the same stack value, and of all grid points that tie with the best one in this way the first in the order of the table (smallest K, then smallest H position) is the one reported. For every velocity ratio K >= 1 the number of different stack values is at most 1 plus, for every arrival of every trace, 1 plus the number of sampling intervals the arrival moves over between the smallest and the largest H (for hk: 3 + 4 (Hmax - Hmin) * vertical S slowness / delta per trace), however many thicknesses the grid has. An arrival that moves by less than the sampling interval is read at the same or the next sample.", "quantifier": "all streams, receiver functions, weights, slownesses below critical, grids of any length and spacing, sampling intervals", "why_tests_cant": "A statement about all grids, arbitrarily fine, and all data; a test sees a few grids.", "anchors": ["src/rfsed/hkZhu.py:hk", "src/rfsed/hkZhu.py:getamp", "src/rfsed/hkYu.py:hkYu", "src/rfsed/hkSeqYeck.py:hkSeq", "src/rfsed/SynthAnalysis.py:hkSynth", "src/rfsed/SynthAnalysis.py:hkSeqSynth"]}
{"id": "C128", "title": "Synthetic seismograms depend continuously on the slowness and on the layers", "statement": "For every stack of layers whose velocities are all below the critical slowness, every sampling and every tolerance ε>0 there is δ>0 such that every stack of as many layers with all velocities, densities and thicknesses within δ, at every slowness within δ, is below critical too, its synthetics are computed, and every sample of its radial and vertical synthetic seismogram differs by less than ε from the original one.", "quantifier": "all stacks of one or more propagating layers, slownesses, sampling steps ≠ 0, lengths ≥ 1, incident phases, and tolerances; all perturbed stacks within δ", "why_tests_cant": "continuity is a statement about all perturbations at all scales; a test compares finitely many pairs of models and cannot exclude a resonance (a vanishing denominator) between them", "anchors": ["src/rfsed/synrf.py:fwd_seis", "src/rfsed/synrf.py:haskell"]}
{"id": "C129", "title": "Noise in the traces changes a water-level receiver function by a bounded amount", "statement": "For a positive water level, changing the radial samples by E in total and the vertical ones by e in total changes every sample of the receiver function by at most E/√(w·d')+A·e/(w·d)·(1+max(1,w)(√d+√d')/√(w·d')), divided by |dt| (by the peak of the Gaussian pulse when normalised), where A is the absolute sum of the radial trace and d, d' the strongest powers of the vertical spectra. When w≤1 and e is at most half of √d, this is at most 2E/√(w·d)+6·A·e/(w^{3/2}·d), a bound in terms of the clean traces alone; with a clean vertical trace it is E/√(w·d).", "quantifier": "all pairs of traces of equal length with a non-zero vertical spectrum, all noises, sampling steps, onsets, Gaussian widths, positive water levels, both normalisations, all samples", "why_tests_cant": "the bound must hold for every noise realisation, also for those that put the vertical spectrum on the other side of the water level, which changes the strongest power and so the level itself", "anchors": ["src/rfsed/synrf.py:deconv_waterlevel"]}
{"id": "C130", "title": "Synthetic water-level receiver functions depend continuously on the Earth model", "statement": "For every layered model below the critical slowness and every tolerance there is a distance δ such that every model with as many interfaces whose depths, velocities and densities, and every list of as many slownesses, all differ by less than δ, gives as many receiver functions through the same session (constructor, run_fwd, filters, run_deconvolution with method 'water'), and every sample of each differs by less than the tolerance. Required: a water level in (0,1], filters that keep the length and turn small changes into small changes, and a filtered vertical synthetic that is not all zero.", "quantifier": "all models and slownesses below critical, all sampling parameters, all sequences of filter and deconvolution calls, all tolerances; all nearby models", "why_tests_cant": "a statement about all models in a neighbourhood, at every scale; a run compares finitely many models, and the water level moves with the model", "anchors": ["src/rfsed/synrf.py:synrf", "src/rfsed/synrf.py:fwd_seis", "src/rfsed/synrf.py:deconv_waterlevel"]}
{"id": "C131", "title": "Rounding errors of the water-level deconvolution stay proportional to the precision", "statement": "If every line of deconv_waterlevel (the two FFTs, the power, the level, the Gaussian, the products and the quotient, the phase factors, the inverse FFT, the normalisation) is evaluated with relative error at most eps, on the values computed before, then every sample of the returned receiver function is within eps*(23 A/sqrt(w d) + 6 A B/(w sqrt(w) d))/dt of the exact one, where A and B are the sums of the absolute samples of the numerator and denominator trace, d the strongest power of the denominator and w the water level; with normalize the bound is divided by the height of the Gaussian pulse (and the first term by it once more). In particular the clipping decision of the water level may come out differently without harm. The exact run is a run of every tolerance.", "quantifier": "all traces of equal length, all dt, preonset, gaussian, water levels in (0, 1], all tolerances eps up to 1/100 with eps*B at most half the strongest amplitude, all runs of that tolerance", "why_tests_cant": "a test sees one machine, one FFT library and one set of roundings; the bound covers every way the operations can round", "anchors": ["src/rfsed/synrf.py:deconv_waterlevel", "src/rfsed/synrf.py:gaussFilter"]}
{"id": "C132", "title": "Rounding errors do not accumulate in the iterative deconvolution", "statement": "If every line of deconv_iterative is evaluated with error at most eps relative to the size of its operands, then (1) each misfit it stores is the misfit of the spike train it has at that moment, up to 9*eps times a quantity that depends on the traces and on the size of that spike train but not on the number of passes; (2) a pass never makes the misfit of the spike train worse by more than a term of second order in eps; (3) each pass adds the best single admissible spike up to a term of first order in eps; (4) if eps is small enough compared with minderr, the number of passes is at most (1+eps)*100/minderr + 1, as in exact arithmetic. The exact run is a run of every tolerance.", "quantifier": "all traces, sampling intervals, Gaussians, phases, itmax, minderr, all tolerances eps up to 1/100 that are small compared with the part of the energy the low-pass keeps, all runs of that tolerance, all passes", "why_tests_cant": "a test sees one machine and one set of roundings; over hundreds of passes errors could in principle add up on other data", "anchors": ["src/rfsed/synrf.py:deconv_iterative", "src/rfsed/synrf.py:gfilter", "src/rfsed/synrf.py:correl"]}
{"id": "C133", "title": "Rounding errors do not change the lag the resonance filter picks, and barely move the filtered record", "statement": "If every line of the resonance filter is evaluated with relative error at most eps (eps times the record length at most 1/100), then each value of the returned autocorrelation is within 8*eps*q of the exact one, where q is the size of the stacked record divided by the size of the record without its linear trend. If the exact autocorrelation descends to its first trough at lag L and rises after it with steps larger than twice that bound, the run with rounding errors picks the same lag: the reported tlag is L*delta up to its own rounding, the reported strength r is within 8*eps*q, and the filtered record differs from the exact one by at most eps*(16 + 10 L) times the size of the record (root of the sum of squares).", "quantifier": "every record that is not a straight line, every sampling interval, every tolerance and every run of that tolerance, every lag", "why_tests_cant": "The rounding errors of FFT, correlation and detrending differ between machines and library versions; a test sees one of them. The claim bounds all of them for every record.", "anchors": ["src/rfsed/ReverbFilter.py:ResonanceFilt", "src/rfsed/SynthAnalysis.py:ResonanceFilt"]}
{"id": "C134", "title": "Rounding errors do not spoil the synthetic seismograms", "statement": "The P and SV seismograms that the forward modelling of synrf computes in inexact arithmetic (every addition, multiplication, division, square root, sine, cosine and 4x4 matrix product of e_inverse, propagator_sol and haskell, and the inverse transform, carried out with a relative error of at most eps) are arrays of numbers, with no NaN, and tend to the seismograms of exact arithmetic as eps tends to 0, sample by sample, for every model in which both waves propagate in all layers. For each model the error is at most a fixed multiple of eps, once eps is small enough.", "quantifier": "all layer stacks, slownesses below every critical slowness, incident waves, sampling intervals (not 0), numbers of samples, and all possible roundings of every single operation", "why_tests_cant": "a test sees one machine's rounding; a formula that divides by a difference that vanishes, or takes the root of a number that can round below zero, goes wrong for some model and some rounding only", "anchors": ["src/rfsed/synrf.py:e_inverse", "src/rfsed/synrf.py:propagator_sol", "src/rfsed/synrf.py:haskell", "src/rfsed/synrf.py:fwd_seis"]}
{"id": "C135", "title": "Rounding errors do not spoil a synthetic receiver function", "statement": "A session with synrf (run_fwd, any bandpass filters, run_deconvolution with the water level) carried out in inexact arithmetic of relative accuracy eps returns one receiver function per slowness, and their samples tend to those of exact arithmetic as eps tends to 0, provided both waves propagate in all layers for every slowness, the filters are continuous, 0 < wlevel <= 1 and the filtered vertical synthetics are not zero. For each model the error is at most a fixed multiple of eps, once eps is small enough, if errors stay proportional under the filters (as they do under linear filters).", "quantifier": "all models, slowness arrays, filter calls, pre-filters, deconvolution parameters, normalised or not, and all roundings of every step", "why_tests_cant": "error bounds for the stages do not add up by themselves: the bound of the deconvolution depends on the traces it is given, which are themselves inexact; uniformity over all nearby traces and all roundings is a statement about infinitely many runs", "anchors": ["src/rfsed/synrf.py:synrf.run_fwd", "src/rfsed/synrf.py:synrf.filter", "src/rfsed/synrf.py:synrf.run_deconvolution", "src/rfsed/synrf.py:deconv_waterlevel"]}
{"id": "C136", "title": "Changes of the synthetics are proportional to changes of the Earth model", "statement": "Where both waves propagate in all layers, every sample of the seismograms of synrf is a differentiable function of the slowness, the sampling interval and the velocities, densities and thicknesses of all layers, so that derivatives with respect to them exist. Around each such model there is a constant such that small changes of these parameters, all smaller than delta, change every sample of the seismograms by less than the constant times delta; likewise for the water-level receiver functions of a whole session (0 < wlevel <= 1, filtered vertical synthetics not zero, linear filters, or any filters under which changes stay proportional) when slownesses, depths, velocities and densities change.", "quantifier": "all layer stacks, slownesses below every critical slowness, incident waves, sampling intervals (not 0), numbers of samples, differentiable families of models, sequences of filter calls and deconvolution parameters, and all nearby models", "why_tests_cant": "a finite-difference test at a few models does not rule out a kink or a jump at another one, and a bound for all nearby models ranges over infinitely many runs", "anchors": ["src/rfsed/synrf.py:e_inverse", "src/rfsed/synrf.py:propagator_sol", "src/rfsed/synrf.py:haskell", "src/rfsed/synrf.py:fwd_seis", "src/rfsed/synrf.py:deconv_waterlevel", "src/rfsed/synrf.py:synrf.run_deconvolution"]}
{"id": "C137", "title": "Iterative receiver functions change in proportion to their input, unless an iteration is a tie", "statement": "If for given traces every iteration of the iterative (default) deconvolution has one clear best lag, and the last improvement is not exactly minderr per cent (or itmax was reached), then for all nearby traces the number of iterations is the same and every sample of the receiver function and every returned misfit depends differentiably on the traces; the last iteration may also find nothing at all to explain, then changes of the samples of at most delta change the receiver function by at most C delta. In particular noise in a delayed, scaled copy changes the recovered pulse in proportion, and the default synthetic receiver functions of a whole session change in proportion to slownesses, depths, velocities and densities of the model. At a tie this fails: traces that differ by an arbitrarily small amount in one sample can have receiver functions that differ by a fixed amount.", "quantifier": "all traces, sampling intervals, pre-onsets (with non-vanishing normalisation), Gaussian widths, itmax, minderr >= 0 and phases whose run has no tie; all changes small enough; all Earth models, slownesses, linear filters and sessions of synrf; for the jump every Gaussian width, minderr and every size of the change", "why_tests_cant": "a test compares a few perturbed traces; that nothing jumps in a whole neighbourhood, that one constant bounds all changes, and that ties are the only exception are statements about all nearby inputs", "anchors": ["src/rfsed/synrf.py:deconv_iterative", "src/rfsed/synrf.py:deconvolve", "src/rfsed/synrf.py:synrf.run_deconvolution", "src/rfsed/synrf.py:synrf.run_fwd"]}
{"id": "C138", "title": "A true Earth model between the grid points is fitted to within a multiple of the grid spacing", "statement": "The synthetic receiver function the waveform fitting computes for a model depends on sediment thickness, sediment and crustal P velocity, slowness, Moho depth and crustal Vp/Vs; around every model in which all waves propagate and for which the deconvolution makes its decisions clearly, each sample changes by at most C times the largest change of these six numbers, and the number of iterations does not change. Consequently, if the data are (over the fitted window) the synthetic of such a true model, the run is made with sediment thickness, velocities and slowness within δ of the true ones, and some (H, Vp/Vs) of the grid is within δ of the true pair, then the best misfit found is at most C δ, the synthetic of the model found fits the data to C δ, and, unless the data are constant, the best correlation is at least 1 - C δ²; likewise for the parallel version with any number of processes and schedule.", "quantifier": "all true models (not on the grid) with propagating waves and no tie in the deconvolution, all band-pass filters that respond in proportion, all sufficiently small δ, all perturbed parameters within δ, all grids containing a point within δ, all weights, numbers of processes and schedules", "why_tests_cant": "The claim is about a continuum of true models and every sufficiently fine grid; a test fits a handful of models that usually lie on the grid.", "anchors": ["src/rfsed/WaveformFitting.py:WaveformFitting", "src/rfsed/WaveformFittingMultiproc.py:WaveformPara", "src/rfsed/WaveformFittingMultiproc.py:run_waveformfitting", "src/rfsed/WaveformFittingMultiproc.py:plotbestmodel", "src/rfsed/synrf.py:synrf.run_fwd", "src/rfsed/synrf.py:synrf.run_deconvolution", "src/rfsed/synrf.py:deconv_iterative"]}
{"id": "C139", "title": "Away from ties rounding does not change the decisions of the iterative deconvolution, and the errors of its receiver functions are proportional to the precision", "statement": "If, in exact arithmetic, deconv_iterative makes every choice of a lag and its stopping decision clearly (its last iteration may find nothing at all to explain), then in arithmetic of any precision eps small enough it makes the same number of iterations, and each sample of the receiver function and each misfit it returns is within C*eps of the exact one; the traces may moreover be changed by up to eps. The same holds for whole sessions with the default method: forward modelling, any filters whose output changes in proportion to their input, deconvolution. The exact results are among the results in inexact arithmetic, for every precision.", "quantifier": "every pair of traces, sampling, onset, Gaussian, number of iterations and stopping rule for which the exact run has no tie; every precision below a threshold; every result the rounding model allows; every session of filters, every model in which both waves propagate", "why_tests_cant": "A test compares one machine's rounding with one reference; it cannot show that no rounding whatsoever, at no precision below the threshold, makes the loop pick another lag or stop elsewhere, nor that the error shrinks in proportion.", "anchors": ["src/rfsed/synrf.py:deconv_iterative", "src/rfsed/synrf.py:synth.run_fwd", "src/rfsed/synrf.py:synth.run_deconvolution"]}
{"id": "C140", "title": "A synthetic experiment ends with the exact best model in every sufficiently precise arithmetic", "statement": "Take a synthetic experiment: synrf with propagating waves, run_fwd, any filters, run_deconvolution (default iterative method, or the water level), then hkSynth over a grid of models on one of the receiver functions. Suppose that in exact arithmetic nothing is a coin toss: the iterative deconvolution takes its decisions clearly (for the water level only: the vertical trace is not zero), every delay time has one nearest sample, the best model of the grid is the only best one, and all models let P and S waves through. Then there are C and δ > 0 such that whenever the whole chain is computed in arithmetic of precision ε ≤ δ, hkSynth succeeds, every stack value is within C ε of the exact one, and the best model it reports is the exact best model. The same holds for hkSeqSynth (both stages) on receiver functions within a multiple of ε of the exact ones, and for the resonance filter followed by hkYu, if moreover the autocorrelation has a clear first trough; the reported P delay of the sediments is then also within C ε; this too is proved for the whole chain from run_fwd to hkYu. On streams, hk and hkSeq (on the traces, or with stack=True on the stacked traces) behave alike: if the data and the stacks are within a multiple of ε of the exact ones and the headers, grids, velocities and weights are the same, then below a threshold on ε they succeed, every stack value is within a multiple of ε, and the best models are the exact best models.", "quantifier": "every layered model, slowness, sampling, filter chain, deconvolution setting, grid, velocity and weights meeting the conditions; every ε ≤ δ; every rounding rule of precision ε and every execution that respects it", "why_tests_cant": "a test runs one arithmetic on one data set; the claim is about all arithmetics below a threshold, all their executions, and all experiments without ties", "anchors": ["src/rfsed/synrf.py: synrf.run_fwd, synrf.run_deconvolution", "src/rfsed/SynthAnalysis.py: hkSynth, hkSeqSynth, ResonanceFilt", "src/rfsed/hkYu.py: hkYu", "src/rfsed/ReverbFilter.py: ResonanceFilt", "src/rfsed/hkZhu.py: hk", "src/rfsed/hkSeqYeck.py: hkSeq"]}
{"id": "C141", "title": "Post-critical ray parameters in the sequential stackings", "statement": "hkSeq and hkSeqSynth return no NaN when data and weights are numbers, whatever the ray parameters, velocities and grids. Sediment stage: if the S leg of a candidate is post-critical (ray parameter above K/Vp) its stack value is made of the first sample of the record three times. If only the P leg is post-critical (ray parameter above 1/Vp), then with a numpy velocity or ray parameter Ps and PpPs read the first sample and the third phase is read at its time; with Python floats all three read the samples nearest to the times in which the P leg counts as zero. Moho stage: the same before negative values are cut to zero, where a leg in the best sediment model counts like one in the candidate crust: one post-critical S leg in either layer makes all three read the first sample, one numpy post-critical P leg in either layer makes Ps and PpPs read the first sample, and a Python post-critical P leg drops out of the sum of that layer. In hkSeq the ray parameter and the data are those of the last trace, or with stack=True the mean slowness of the Moho stream (a numpy number) and the stacks.", "quantifier": "every stream, record, grid, ray parameter, velocity and weights; every kind (Python or numpy) of velocity and slowness; with and without pre-stacking", "why_tests_cant": "NaN and complex numbers must be followed through two layers' legs for all inputs; a test sees a few combinations of kinds and criticality", "anchors": ["src/rfsed/hkSeqYeck.py: hkSeq", "src/rfsed/SynthAnalysis.py: hkSeqSynth"]}
{"id": "C142", "title": "The waveform fit ends with the exact best models in every sufficiently precise arithmetic", "statement": "Take the exact data of a waveform fit: a stacked receiver function, a synthetic receiver function and a phase criterion for each model of the grid, weights, a whole number of seconds before the onset and of samples per second. Suppose the fitted 25 seconds of the stack and of each synthetic vary, are equally long and have no sample that is exactly zero, and the largest correlation, misfit and phase criterion are positive. Then for every c > 0 there are G and δ > 0 such that whenever WaveformFitting is run in an arithmetic rounding to nearest with precision ε ≤ δ on the same grid and weights, with the stack, the synthetics and the values returned by pg (for the exact signs) within c ε of the exact ones, and succeeds, it tabulates the models of the grid in their order, every misfit, correlation, phase criterion and goodness of fit is within G ε of the exact value, and for each of the four criteria the model reported is the exact best model if that one is unique. The same holds for WaveformPara, run_waveformfitting and plotbestmodel with any number of processes, the table being a permutation.", "quantifier": "every exact fit meeting the conditions, every c, every ε ≤ δ, every rounding rule of that precision, every environment, stream and grid close to the exact one, every number of processes and schedule", "why_tests_cant": "A test compares one run in one arithmetic with reference values; that a threshold exists below which every arithmetic reports the exact best models, for all data and grids, is a statement about a limit.", "anchors": ["src/rfsed/WaveformFitting.py: WaveformFitting", "src/rfsed/WaveformFittingMultiproc.py: WaveformPara, WaveformFit_multiproc, run_waveformfitting, plotbestmodel"]}
{"id": "C143", "title": "Noise in the recorded seismograms, together with rounding, cannot change a clear answer", "statement": "Take recorded events (radial and vertical seismograms), make receiver functions of them with the iterative or the water-level method, and stack them with hk or hkSeq (stack not True), hkSynth, hkSeqSynth, or - after the resonance filter - hkYu. Suppose that in exact arithmetic nothing about the analysis is a coin toss: every iteration of the deconvolution has one best lag and the stopping rule is not decided by a hair, with minderr >= 0 and a preonset that is not one of the shifts excluded in C56 (water level: the vertical seismogram is not zero, 0 < wlevel <= 1); every arrival time of the grid has one nearest sample; the best model (of each stage) is the only best one; all models let P and S waves through. Then there are C and d > 0 such that for every e <= d: if every sample of every seismogram is changed by less than e and everything is computed in arithmetic of precision e or better, every sample of every receiver function and every stack value changes by at most C e and the reported best model does not change. For hk the same holds for the noise alone, in exact arithmetic.", "quantifier": "every number of events, all seismograms of all lengths, all perturbations of the samples, all arithmetics of sufficient precision, both deconvolution methods and all their parameters, all grids, weights, velocities and slownesses for which the exact analysis is clear", "why_tests_cant": "A test adds one noise realisation to one event; the claim is about all perturbations up to a radius that must be shown to exist, through an iterative greedy search, a nearest-sample search and an arg max, none of which is continuous.", "anchors": ["src/rfsed/synrf.py: deconv_iterative, deconv_waterlevel", "src/rfsed/hkZhu.py: hk", "src/rfsed/SynthAnalysis.py: hkSynth, hkSeqSynth, ResonanceFilt", "src/rfsed/hkYu.py: hkYu", "src/rfsed/ReverbFilter.py: ResonanceFilt", "src/rfsed/hkSeqYeck.py: hkSeq"]}
{"id": "C144", "title": "Noise in the recorded seismograms cannot change a clear answer of the averaged stack", "statement": "Take recorded events, make receiver functions of them with the iterative or the water-level method, and run hk or hkSeq with stack=True, which averages the receiver functions sample by sample and stacks the average with the mean slowness. Suppose that in exact arithmetic the deconvolutions are clear (as in C143), all models let P and S waves through, every arrival time of the grid (at the mean slowness) has one nearest sample, and the best model (of each stage) is the only best one. Then there are C and d > 0 such that for every e <= d: if every sample of every seismogram is changed by less than e, everything is computed in arithmetic of precision e or better, and the average is computed within C0 e of the average of the receiver functions it is given (C0 being any fixed number), the call succeeds, every stack value changes by at most C e and the reported best model does not change.", "quantifier": "every number of events, all seismograms of all lengths, all perturbations of the samples, all arithmetics of sufficient precision, every way of averaging of that accuracy, both deconvolution methods and all their parameters, all grids, weights, velocities and slownesses for which the exact analysis is clear", "why_tests_cant": "The statement is about all small perturbations of all samples at once, in all arithmetics; a test draws a few noise realisations in one arithmetic.", "anchors": ["src/rfsed/hkZhu.py: hk", "src/rfsed/hkSeqYeck.py: hkSeq", "src/rfsed/synrf.py: deconv_iterative", "src/rfsed/synrf.py: deconv_waterlevel"]}
{"id": "C145", "title": "Noise in the recorded seismograms cannot change the clear best models of the waveform fit", "statement": "Take recorded events, make receiver functions of them with the iterative or the water-level method, and fit their stack with WaveformFitting. Suppose that in exact arithmetic the deconvolutions are clear (as in C143) and the fit of the exact average of the receiver functions meets the conditions of C142. Then there are G and d > 0 such that for every e <= d: if every sample of every seismogram is changed by less than e, everything is computed in arithmetic rounding to nearest with precision e or better, the stack is within C0 e of the average of the receiver functions it is given, and synthetics and phase criteria are within c e of the exact ones (C0 and c being any fixed numbers), then, if the call succeeds, every misfit, correlation, phase criterion and goodness of fit in the table is within G e of the exact one, and for each of the four criteria the model reported is the exact best model if that one is unique. The same holds for WaveformPara, run_waveformfitting and plotbestmodel with any number of processes. The exact receiver functions themselves are among those the noisy deconvolutions may return.", "quantifier": "every number of events, all seismograms of all lengths, all perturbations of the samples, all arithmetics of sufficient precision, both deconvolution methods and all their parameters, all grids, weights, synthetics and phase criteria for which the exact fit is regular, every number of processes and every schedule", "why_tests_cant": "The statement is about all small perturbations of all samples at once, in all arithmetics and under all schedules; a test draws a few noise realisations in one arithmetic.", "anchors": ["src/rfsed/WaveformFitting.py: WaveformFitting", "src/rfsed/WaveformFittingMultiproc.py: WaveformPara, run_waveformfitting, plotbestmodel", "src/rfsed/synrf.py: deconv_iterative", "src/rfsed/synrf.py: deconv_waterlevel"]}
{"id": "C146", "title": "Noise in the recorded seismograms of a stack cannot change a clear answer of the modified H-k method", "statement": "Take recorded events over a sedimentary basin, make receiver functions of them with the iterative or the water-level method, pass their stack through ReverbFilter.ResonanceFilt and give the result to hkYu. Suppose the stack is the average of the receiver functions, and that in exact arithmetic the deconvolutions are clear (as in C143), the stack is not a straight line, its autocorrelation starts with a clear trough, all models let P and S waves through, every arrival time of the grid has one nearest sample, and the best model is the only best one. Then there are C and d > 0 such that for every e <= d: if every sample of every seismogram is changed by less than e, everything is computed in arithmetic of precision e or better, and the stack is within C0 e of the average of the receiver functions it is given (C0 being any fixed number), hkYu succeeds, the reported P delay of the sediments and every stack value change by at most C e, and the reported best model does not change.", "quantifier": "every number of events, all seismograms of all lengths, all perturbations of the samples, all arithmetics of sufficient precision, every way of averaging of that accuracy, both deconvolution methods and all their parameters, all grids, weights, velocities and slownesses for which the exact analysis is clear", "why_tests_cant": "The statement is about all small perturbations of all samples at once, in all arithmetics, through a greedy deconvolution, a peak search, a nearest-sample search and an arg max; a test draws a few noise realisations in one arithmetic.", "anchors": ["src/rfsed/ReverbFilter.py: ResonanceFilt", "src/rfsed/hkYu.py: hkYu", "src/rfsed/synrf.py: deconv_iterative", "src/rfsed/synrf.py: deconv_waterlevel"]}
{"id": "C147", "title": "More iterations only continue the fit", "statement": "Run the iterative deconvolution twice on the same traces, the second time with an iteration limit at least as large and a stopping threshold at most as large (and not negative). The second run makes at least as many iterations; its list of misfits begins with the one of the first run (if that made an iteration); its spike trains are those of the first run as long as that lasted, and its final misfit is not larger; it returns the same receiver function if it made no further iteration; and if only the iteration limit was raised and the first run had stopped before its limit, it makes none. Conversely, for traces of at least three samples, stopping at k iterations, for any k up to the number made, gives a run of exactly k iterations whose misfits are the first k-1 of the full run.", "quantifier": "all traces, sampling intervals, pre-onsets, Gaussian widths, phases, iteration limits and stopping thresholds", "why_tests_cant": "relates every pair of runs with different limits, for all data", "anchors": ["src/rfsed/synrf.py:deconv_iterative"]}
{"id": "C148", "title": "Raising the water level trades fit for stability", "statement": "Deconvolve the same two traces, whose length is a power of two and whose denominator is not zero, with the water levels 0 < w1 <= w2 and otherwise equal parameters. The misfit with w2 is at least the one with w1 and at most 1, and the sum of squares of the receiver function with w2 is at most the one with w1, normalised or not. For traces of any length and levels of one and more, the receiver function is inversely proportional to the level: w1 times the first is w2 times the second, sample by sample.", "quantifier": "all traces, sampling intervals, pre-onsets, Gaussian widths, pairs of water levels, both normalisations", "why_tests_cant": "an inequality for all data, through the FFT and a level that depends on the data", "anchors": ["src/rfsed/synrf.py:deconv_waterlevel"]}
{"id": "C149", "title": "A wider Gaussian lets more through", "statement": "For widths 0 < a <= a' and a positive sampling interval, every coefficient gaussFilter returns for a' is at least the one it returns for a, and every real trace filtered with it has at least the energy it has when filtered with the other. Water-level deconvolution of traces whose length is a power of two, not normalised, returns with a' a receiver function whose sum of squares is at least the one with a.", "quantifier": "all traces, sampling intervals, FFT lengths, pre-onsets, water levels and pairs of widths", "why_tests_cant": "an inequality for all data, through the FFT", "anchors": ["src/rfsed/synrf.py:gaussFilter", "src/rfsed/synrf.py:gfilter", "src/rfsed/synrf.py:deconv_waterlevel"]}
{"id": "C150", "title": "Raising a weight favours its phase", "statement": "For any two choices of weights v and v' on the same data, the search made with the weights v'-v succeeds and its stack value at the best model chosen with v' is at least its value at the best model chosen with v: changing the weights moves the answer only in the direction of the change. In particular raising only the Ps weight of hk never lowers the (stacked) Ps amplitude read at the best model. In the sequential variants this holds for the Moho stage with the sediment-stage weights fixed, negative stack values being set to zero.", "quantifier": "all pairs of weight triples (any sign), data, grids, velocities and header contents for which both searches succeed, in exact arithmetic; the sequential variants with an explicit Vp", "why_tests_cant": "the weights range over a continuum of pairs and the law must hold for every data set", "anchors": ["src/rfsed/hkZhu.py:hk", "src/rfsed/SynthAnalysis.py:hkSynth", "src/rfsed/SynthAnalysis.py:hkSeqSynth", "src/rfsed/hkYu.py:hkYu", "src/rfsed/hkSeqYeck.py:hkSeq"]}
{"id": "C151", "title": "The weights with which a model wins form a convex set", "statement": "If two choices of weights give the same best (H, Vp/Vs) on the same data, every mixture a*v + c*v' with non-negative factors (not both zero) also succeeds and gives that best (H, Vp/Vs). This holds for hk, hkSynth, hkYu, the Moho stage of hkSeq and hkSeqSynth, and for the overall best model of WaveformFitting (whatever the sign of its normalisers), so an answer found at two weightings is the answer at everything in between.", "quantifier": "all pairs of weight triples of any sign, all non-negative factors, data, grids (repeated grid values included) and header contents for which the two runs succeed, in exact arithmetic; the sequential variants with an explicit Moho Vp and fixed sediment weights", "why_tests_cant": "the mixtures form a continuum and the first-maximum rule must be respected by all of them, for every data set", "anchors": ["src/rfsed/hkZhu.py:hk", "src/rfsed/SynthAnalysis.py:hkSynth", "src/rfsed/SynthAnalysis.py:hkSeqSynth", "src/rfsed/hkYu.py:hkYu", "src/rfsed/hkSeqYeck.py:hkSeq", "src/rfsed/WaveformFitting.py:WaveformFitting"]}
{"id": "C152", "title": "Raising the weight of a criterion of the waveform fit never makes the overall best model worse in it", "statement": "On the same data, raising only wtCorr never lowers the correlation of the overall best model, raising only wtRMSE never raises its misfit, raising only wtPG never lowers its phase criterion (each when that criterion is positive for some model). For any two choices of weights the score made with the difference of the weights is at least as large at the new overall best model as at the old one; the same for the overall best model plotbestmodel prints from the results of the multiprocess fit.", "quantifier": "all pairs of weight triples of any sign, data, grids and collaborator behaviours for which both runs succeed, in exact arithmetic", "why_tests_cant": "the weights range over a continuum of pairs and the law must hold for every table of criteria", "anchors": ["src/rfsed/WaveformFitting.py:WaveformFitting", "src/rfsed/WaveformFittingMultiproc.py:plotbestmodel"]}
{"id": "C153", "title": "Small changes of the weights cannot change a clear answer", "statement": "If the samples read are at most M in absolute value, changing the weights by |w1'-w1|+|w2'-w2|+|w3'-w3| = D changes every stack value by at most D*M (N*D*M for hk on N traces), and a best model that wins by more than twice this amount remains the best model. In hkSeq and hkSeqSynth this holds for the sediment stage, and when its best model is such a clear winner, for the Moho stage with the change of its own weights.", "quantifier": "all data, grids, velocities, header contents and pairs of weight triples of any sign for which both runs succeed, with and without pre-stacking, in exact arithmetic; the sequential variants with an explicit Moho Vp", "why_tests_cant": "a neighbourhood of weights is a continuum and the bound must hold for every data set", "anchors": ["src/rfsed/hkZhu.py:hk", "src/rfsed/SynthAnalysis.py:hkSynth", "src/rfsed/SynthAnalysis.py:hkSeqSynth", "src/rfsed/hkYu.py:hkYu", "src/rfsed/hkSeqYeck.py:hkSeq"]}
{"id": "C154", "title": "Small changes of the weights cannot change a clear overall best model of the waveform fit", "statement": "Changing the three weights by D = |wtCorr'-wtCorr|+|wtRMSE'-wtRMSE|+|wtPG'-wtPG| leaves every model's correlation, misfit and phase criterion as they are and changes its overall goodness of fit by at most D*A, where A = 1 if no correlation or phase criterion is negative, and otherwise A >= 1 bounds how far below zero they go relative to the largest. An overall best model that wins by more than 2*D*A stays the best model. The same holds for the overall best model plotbestmodel prints from the results of the multiprocess fit.", "quantifier": "all pairs of weight triples of any sign, data, grids and collaborator behaviours for which both runs succeed with some positive correlation, misfit and phase criterion, in exact arithmetic", "why_tests_cant": "a neighbourhood of weights is a continuum and the bound must hold for every table of criteria", "anchors": ["src/rfsed/WaveformFitting.py:WaveformFitting", "src/rfsed/WaveformFittingMultiproc.py:plotbestmodel"]}
{"id": "C155", "title": "Mixing weights never makes the best fit better than mixing the best fits", "statement": "If two choices of weights give a result, so does every mixture with non-negative factors a and c, and the value of its best model is at most a times the first best value plus c times the second: the best value is a convex function of the weights. Holds for the stack of hk, hkSynth, hkYu, for the Moho stage of hkSeq and hkSeqSynth (with the value returned, negative ones removed) and for the overall goodness of fit of the best model of the waveform fit. When plotbestmodel succeeds with all three choices of weights on the results of a multiprocess fit, the same holds for the overall best model it prints.", "quantifier": "all data, grids, velocities, header contents, pairs of weight triples of any sign and factors a, c >= 0 for which the two runs succeed and figures can be drawn, in exact arithmetic; the sequential variants with an explicit Moho Vp", "why_tests_cant": "pairs of weights and factors range over a continuum and the law must hold for every data set", "anchors": ["src/rfsed/hkZhu.py:hk", "src/rfsed/SynthAnalysis.py:hkSynth", "src/rfsed/hkYu.py:hkYu", "src/rfsed/hkSeqYeck.py:hkSeq", "src/rfsed/SynthAnalysis.py:hkSeqSynth", "src/rfsed/WaveformFitting.py:WaveformFitting", "src/rfsed/WaveformFittingMultiproc.py:plotbestmodel"]}
{"id": "C156", "title": "A few bad traces cannot change a clear answer", "statement": "Without the pre-stack option, adding n traces with samples at most M in absolute value to a stream changes every stack value of hk by at most n*(|w1|+|w2|+|w3|)*M. If the best model of the stream wins by more than twice this amount it remains the best model, and if the best model of the larger stream wins by more than twice this amount the stream without the n traces has the same one. Replacing some traces by others changes every value by at most the sum of what both groups can contribute, with the same consequence for a clear winner.", "quantifier": "all streams, added or replaced traces (any number, any slowness), grids, velocities and weights of any sign for which the runs succeed, in exact arithmetic", "why_tests_cant": "the bad traces may contain anything and be of any number", "anchors": ["src/rfsed/hkZhu.py:hk"]}

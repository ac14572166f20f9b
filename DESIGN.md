# A Lean 4 model of akinremisa/rfsed and proofs about it

Source: `/repo/src/rfsed/*.py` (pinned commit, read as text, never executed).
Lean project: `lean/`. Everything is built by `lake build` in `lean/`.

## 1. Layout

| directory | content |
|---|---|
| `lean/Verif/Py/` | the Python / numpy vocabulary: number interface `PyFloat`, exceptions `PyErr`, arrays, `argmax`/`argmin`, `mean`, `arange`, `detrend`, `correlate`, DFT |
| `lean/Verif/Model/` | one file per Python module; function by function; every definition cites file and lines |
| `lean/Verif/Spec/` | small, independent vocabulary in which the properties are stated (first maximum, nearest sample, Zhu & Kanamori delay times, circular delay …). It does not import the models except for the data types of inputs and outputs |
| `lean/Verif/Proofs/` | helper lemmas |
| `lean/Verif/Props/` | one file per group of properties; only property theorems and the non-vacuity `example`s beside them |

## 2. How Python is modelled

* **Exceptions** are values: `Except PyErr α`.  The order in which checks happen
  in the model is the order of evaluation in the code, so *which* error comes
  out first is also modelled.
* **Mutation** of arrays / trace stats becomes returning the new value.  A
  function that mutates its arguments and then raises returns the pair
  (new state, `Except`), so partial effects are visible (C18).  numpy *views*
  are modelled where they matter: `bestmodel` of `hk` is a view of one row of
  `stackvalues`, so the result record stores the row index (C16, C21).
* **Numbers.** The stacking code is modelled over an arbitrary type `F` with
  the operations-only class `PyFloat F` (no algebraic laws).  IEEE doubles are
  such a type.  Structural theorems use only the law class `IEEEOrder F`
  (comparison is a total preorder on non-NaN values and false on NaN), which
  doubles satisfy; these theorems therefore hold for the floating-point
  program.  Three lawful instances are provided: `ℝ`; `NReal` = reals with a
  NaN (used for post-critical delay times); and `FL R` = reals where every
  operation is followed by a rounding with relative error at most `R.u` (the
  standard model of floating-point arithmetic: no overflow, no underflow, no
  NaN).  Theorems that need algebra (sums, products, square roots) are stated
  at `ℝ`: *exact real arithmetic*; C105 bounds what rounding changes for the
  Zhu & Kanamori stacking.
* The spectral code (resonance filter, deconvolution, propagator matrices) is
  modelled over `ℝ`/`ℂ` with an elementary DFT
  `X k = Σ_{j<n} x j · e^{-2πi jk/n}`; rounding enters only in C131–C135 and C139: as a tolerance of every computed array, and in C134 of every single operation.
* **Loops** become `foldlM` with the same state (running index, table being
  written), **not** the comprehension they compute; that they compute it is a
  theorem.
* **External calls** become parameters whose assumed behaviour is written down
  here (section 5) and never more than that is used.
* **Plotting** (matplotlib) is not modelled except as: "may raise" (parameter),
  and the numbers handed to it (marker times, table, labels) where a property
  is about them.

## 3. Plan per property

| id | what is modelled | how proved |
|---|---|---|
| C01 | the five `getamp`s, `np.argmin` as numpy's loop | induction on the loop; spec `FirstNearest` |
| C02 | time axis `delta*arange(l) - preonset` at ℝ | from C01 + arithmetic |
| C03 | `hk` complete double loop with running index into a zero table | loop invariant: first z rows written, rest zero |
| C04 | as C03; value = spec sum with `Real.sqrt` times | fold = list sum |
| C05 | `np.argmax` loop | induction; spec `IsFirstMax` |
| C06 | branch `stack == True` | fold of a constant |
| C07 | permutation of the stream | sum over permutation, congruence of table, argmax |
| C08–C09 | delay-time formulas | real analysis |
| C10, C11 | whole `hk` at ℝ | from C04 + bounds / scaling lemma on argmax |
| C12, C13 | `None` handling | case split; for C13 the negation for the weights |
| C14 | `hk`/`hkYu`/`hkSynth` over `F` with NaN | NaN propagation through argmin; complex branch at ℝ |
| C15 | indexing with IndexError | exact iff over grid × traces |
| C16–C18 | `plothk` and its four siblings as (state, result) | induction over clip loop |
| C19–C22 | `hkSeq` with its un-accumulated `s` | negation witness + what it does compute |
| C23, C24 | `hkYu` | algebra; equality with `hkSynth` |
| C25–C27 | remaining stacking variants | shared loop lemma |
| C28–C35 | both `ResonanceFilt` | elementary DFT theory, Cauchy–Schwarz, `find_peaks` model |
| C36–C45 | `WaveformFitting`, `WaveformPara`, `run_waveformfitting`, `plotbestmodel` | lists + real analysis |
| C46 | `Pool.map` as transition system over chunks, any schedule | invariant over all reachable states |
| C47–C50 | `ExtractEq`, `ExtractEqMultiproc` over an abstract `read` | list reasoning |
| C51, C52 | class `synrf` as state machine | history induction |
| C53–C55 | `deconv_iterative` with its while loop | termination measure, Parseval / projection |
| C56, C57 | `phaseshift`, `gaussFilter` | DFT shift theorem |
| C58, C59 | `deconv_waterlevel`, `deconvolve` | pointwise; DFT inversion |
| C60–C62 | `e_inverse`, `propagator_sol`, `haskell`, `fwd_seis` | matrix identities; trigonometric addition formulas |
| C63 | `save_*` (also as two separate accesses of many processes), `install_*` with CPython's `copy_tree` over a finite-map file system | invariant over all interleavings; induction over the mutual tree |
| C64–C66, C68 | `ResonanceFilt` (+ `hkYu`) | Wiener–Khinchin, a sum-of-cosines argument for "a trough always exists", Parseval |
| C67 | `plotfiltrf`, `plotfiltSynthrf` | list reasoning on the drawn data |
| C69–C71 | goodness of fit over `NReal`; first-extreme loops | NaN propagation; loop invariants |
| C72, C74–C78 | propagator matrices at ℂ | derivatives of the closed forms against the equations of motion; flux form conserved per layer; matrix algebra |
| C73 | NaN flags through `e_inverse`/`propagator_sol`/`haskell` | flag tracking (a spectrum is `Option`) |
| C79, C84, C85 | composition constructor → `run_fwd` → filters → `run_deconvolution` | C51/C52 + C61 + C53/C54; Wiechert's relation by trigonometry |
| C80, C81 | every saved figure as data (curves, axes, marks, labels, file name) | unfolding against a separate figure specification |
| C82, C83 | file system before/after `ExtractEq` | list reasoning; sortedness of the file names read |
| C86 | waveform fitting with data made by a grid model | C36, C44, C71 + first-extreme loops |
| C87 | `WEnv.synthRF` filled with the model of `synrf` over `NReal` | C84 + C69; NaN propagation; parallel version via C37/C46 (`Props/WaveformParallel`) |
| C88 | loaders of `util.py` over the file system map | frame lemmas, induction over calls |
| C89 | `haskell`, `fwd_seis` against `Spec/Delays.lean` (pulse trains) | eigen-decomposition of the propagators gives 4ⁿ phase terms; the determinant is handled through the antisymmetric form of two rows, 5ⁿ phase terms; direct term non-zero by energy flux |
| C90 | `deconv_iterative`, `deconv_waterlevel`, `RFTrace.deconvolve` | simulation relation between the two runs of the loop, induction over the remaining iterations |
| C91 | all stacking functions | characterisation of the loop's table by membership; order lemmas of `argmax` under `IEEEOrder` |
| C92 | `hk`, `hkSynth` | the loop's table as values of a function on the grid; sums of tables; first maximum of a sum |
| C93 | `hk`, `hkSynth`, `hkYu`, `hkSeqSynth`, `hkSeq` | linearity of the weighted amplitude lifted through sums, last-trace loops and the grid loop |
| C94 | `hk`, `hkSynth`, `hkSeq`, `hkSeqSynth`, `hkYu`, `getamp` | characterisation of the nearest sample on a regular axis by a half-open interval; bound of the delay times |
| C95 | `hk`, `hkSynth`, `hkYu`, `hkSeq`, `hkSeqSynth` | Lipschitz bound of one cell (sum of weighted samples), lifted over the grid; margin argument for the first maximum |
| C96 | `hk`, `hkSynth`, `hkYu`, `hkSeqSynth`, `hkSeq` | homogeneity of the delay-time formulas (also for complex times), invariance of the nearest sample under scaling |
| C97 | both `ResonanceFilt`, then `hkYu` | the lag times the frequency is dimensionless; composition with C96 |
| C98 | both `ResonanceFilt` | strength and lag are functions of the normalised autocorrelation; autocorrelation and detrending commute with reversal |
| C99 | `WaveformFitting` | what it ignores: two streams whose stacks agree on 0..25 s give the same table, printed models or exception (also per worker result); a gain and baseline on the stack multiplies correlations by the sign of the gain, leaving the best model; phase best unchanged under positive gain |
| C100 | `WaveformFitting` | success condition: equivalence: returns a table iff a sample lies at t = 0, the grid is not empty and every grid model can be judged (synthetic exists, same positive number of samples in the window, phase criterion computable); parallel version via C37/C46 (`Props/WaveformParallel`) |
| C101 | `WaveformFitting` | enlarging the grid: per-model criteria unchanged (any floats), best by each criterion no worse, overall goodness unchanged if the extremes are; a concrete run proves that adding a hopeless model can change the overall best; parallel version via C37/C46 (`Props/WaveformParallel`) |
| C102 | `ExtractEq`, `ExtractEq_Multiproc` | sub-catalogue / sub-directory extraction is a subsequence; split catalogue gives a permutation; longer windows only lose events; from C49/C50 by list induction |
| C103 | circular shifts through `fft`/`ifft`, the filters, the correlation and the loop | phases cancel in the correlation and in the water-level quotient; induction over the loop with the residual shifted; equality of the whole result (errors included) |
| C104 | totality of `hk`, `hkSynth`, `hkYu`, `hkSeqSynth`, `hkSeq` as an exact condition | each theorem is an equivalence; forward by inverting the run (one grid cell was evaluated), backward by building the run |
| C105 | `hk`, `hkSynth` run on a third number type `FL R`: reals with every operation rounded with relative error ≤ u (`Verif/Py/Rounded.lean`); any rounding with u ≤ 1/1000, in particular round-to-nearest binary with 53 digits | forward error analysis: delay times to 14.1·u·timeScale, axis to 3.02·u·L, hence the nearest-sample search is right up to `timeAccuracy`; stack values by induction over traces; same best model when the exact winner wins by more than twice the bound; with `stack=True` the ray parameter itself is a rounded mean of n slownesses (`meanAccuracy`), `Props/RoundingStack.lean` |
| C106 | all five stacking functions over any number type; a gain is a map that commutes with the arithmetic (`Spec.Gain`): any positive factor in exact arithmetic, powers of two in binary floating point | equations between outcomes by congruence through the loops; rounding commutes with powers of two (`Int.log`) |
| C107 | axes limits and shaded ranges of every H-k figure | extremes of a list, membership in the grid; inversion of the drawing code of all five plotting functions; explicit two-trace stream whose mark is outside |
| C108 | the disks a call of either extraction passes through (only reading, then a file with arbitrary contents at the output path), and what a failing `Stream.write` leaves | case analysis on the crash point, frame lemma, induction over the list of killed attempts; commutation of two extractions from the same lemma |
| C109 | `Pool.map` as a transition system in which a worker may be killed at any moment while it holds a chunk | invariant counting all chunks (left = lost + pending + running + queued); termination measure |
| C110 | `deconv_iterative` on a numerator that is the denominator convolved with spikes at admissible lags | frame bound by Parseval, Cauchy-Schwarz: every greedy step removes a fixed fraction of the residual; geometric decay by induction; error of the receiver function from the misfit |
| C111 | `install_examples`, `install_rfsed_tests` on a file system with anything standing at the destination | mutual induction over the source tree with a frame-and-outcome invariant (`Outcome`), sequencing lemma for disjoint places; exact success criterion `InTheWay`, `Arrived`, `OnlyFrom` (Spec/Util) |
| C112 | `deconv_iterative`, `deconv_waterlevel`, both `ResonanceFilt`, both resonance plotting functions, every outcome | equivalences: error branches by unfolding, success by the totality of the loop; two samples and one-sample broadcasting separately; figures compared with a list saved one by one (`c112_*`) |
| C113 | `deconv_iterative`, `deconv_waterlevel` on a numerator that is the denominator convolved with spikes plus noise | greedy step: correlations at the admissible lags see a ninth of the residual while the noise is at most half of it (Cauchy–Schwarz, Parseval frame bounds), induction over the run; water level: linearity of the inverse DFT and complex Parseval (`c113_*`) |
| C114 | two runs of the waveform fit with the same grid and different stacked records (serial; the recovery part for the parallel version too) | triangle inequality for the misfit, Cauchy–Schwarz for the correlation, sign preservation for the phase criterion; perturbation of a maximum |
| C115 | two runs of the resonance filter (either version) on records of the same length and sampling, then hkYu on their output | Cauchy–Schwarz for lagged sums, detrending is a projection, shape of the first trough under perturbation, C95 |
| C116 | hkYu, hkSeq and hkSeqSynth over the rounded number type FL R of C105 (any rounding with unit roundoff u ≤ 1/1000) | error analysis of the two-layer times and of the derived sediment delay; comparison with the exact run on the same numbers; `hkSeq` with `stack=True` in `Props/RoundingStack.lean` |
| C117 | all five stackings over reals with NaN: value NaN iff a sample read is NaN; argmax of a table with NaN | evaluation of the delay times over `NReal`, NaN propagation through the weighted sum and the sum over traces, `argmax` returns the first NaN, clipping keeps NaN |
| C118 | all five stackings with two assumed velocities and corresponding grids | closed form of the equivalent model (`tradeH`, `tradeK`), equality of the delay times, relabelling of the grid loop, uniqueness through C09, sign of the bias by algebra |
| C119 | velocity ratio `psRatio` explaining one Ps time for a given thickness; rows of the tables of `hk` with weights (w1, 0, 0) | algebra of the vertical slownesses; uniqueness for two ray parameters by comparing sums of square roots; the row formulas C04 and C06 with the uniqueness of the nearest sample |
| C120 | receiver functions that show the three phases of a layer up to a small disturbance; nearest samples of a regular time axis | a model that misses the sample of one phase loses that phase's weight, so the best model reads all three samples and its delay times are within one sampling interval of the layer's; algebra turns times into thickness and ratio; in the sequential case the same argument with the sediment delays added |
| C121 | sequential and sub-sediment stacking with a wrong sediment: one-way time bookkeeping and the closed form of the biased crust | algebra on the delay times (`c121_times`, `c121_unique`), table rows by inversion of the calls (`c121_hkSeq`, `c121_hkSeqSynth`, `c121_hkYu`) |
| C122 | the search for the onset (`delta * i - preonset == 0`) and the end `int(25 / delta)` of the waveform-fitting window in arithmetic rounded to nearest with p+1 binary digits, any tie rule, unlimited exponent | gap lemma for floating-point numbers (`Nearest.eq_of_close`, `eq_of_half`), then the model over `FL R` (`c122_onset`, `c122_window`, `c122_judged`, `c122_succeeds`, `c122_usual_rates`, `c122_unlucky`) |
| C123 | the delay times of `hk`, `hkSynth`, `hkYu`, `hkSeqSynth` as functions of the ray parameter | explicit layer with the same three delay times for another ray parameter, uniqueness (C09), sign of the shift; tables relabelled grid point by grid point; tangent-line (Jensen) argument over a list of slownesses of any length for the mean slowness of `stack=True`; equality of the two stacking modes when the nearest samples agree (theorems c123_*) |
| C124 | the sediment corrections of `hkYu` and of the second stage of `hkSeqSynth` | `hkYu`'s corrections identified with the sediment's delay times at vertical incidence; exact bounds on the neglected obliquity; equality of tables (up to clipping) and of best models for equal nearest samples, for vertical rays and for zero thickness (theorems c124_*) |
| C125 | names of the figures each plotting call saves (Model/HkZhu, HkSeqYeck, HkYu, SynthHk, Resonance, WaveformFitting), a folder as a history of saved files (Spec/Files) | inversion of every plotting function down to the name given to savefig, cancellation of common parts of names; `c125_*` |
| C126 | the criteria of `WaveformFitting` over numbers rounded to nearest with p+1 binary digits, whole samples per second and whole seconds before the onset (C122) | forward error analysis of mean, scalar product, quotient and root; Cauchy-Schwarz for the correlation; margins as in C114; numpy sums pairwise while the model sums from left to right, so the bound for sums is proved for every grouping (`c126_any_order`) |
| C127 | the tables and best models of all stacking functions on a regular time axis, P velocities and slownesses that propagate | the nearest sample is monotone in the time and moves by at most one more than the time does; the value of a row factors through the sum of its sample numbers, which is monotone in the thickness |
| C128 | `fwd_seis` below the critical slowness, as a function of the slowness and of every layer's Vp, Vs, density and thickness | continuity of every factor of the propagator product at a propagating stack, of its quotient (the denominator does not vanish, C61) and of the finite inverse transform; `c128_seismograms` is the ε–δ statement and includes that nearby stacks still propagate |
| C129 | `deconv_waterlevel` on two pairs of traces of the same length | the map from the vertical spectrum to the water-level inverse is Lipschitz: cases on which side of the level each spectrum is, with the level itself moving by at most the noise; triangle inequality through the finite transforms; `c129_noise`, `c129_small_noise`, `c129_radial` |
| C130 | `synrf.__init__`, `run_fwd`, any filters, `run_deconvolution` with the water level, as one function of depths, velocities, densities and slownesses | C128 for the synthetics, C129 for the deconvolution, steady filters (hypothesis on the external band-pass) composed, minimum of the distances over the slownesses; `c130_receiver_functions` |
| C131 | relational model of `deconv_waterlevel` in arithmetic of tolerance ε (every array within ε of the exact result of its line on the computed operands, FFT included) | error of the clipped denominator, of the quotient, of the shifted spectrum bin by bin; inverse FFT; normalisation; the exact model run and an inexact run meet the relation |
| C132 | relational model of `deconv_iterative` in arithmetic of tolerance ε (filters, correlation, spike, prediction, residual, misfit, stopping rule) | error of the residual of a pass from the spike train alone (it is recomputed every time); error of the correlations; energy identity of a spike; induction over the passes for the bound on their number; the exact model run meets the relation |
| C133 | `ResonanceFilt` in inexact arithmetic as a relation (`Model/ResonanceRounded`): every line within a relative tolerance ε of its exact result on the computed operands | normalised autocorrelation bound through Cauchy–Schwarz, trough selection through the gap, filter through Parseval; exact run and a perturbed run shown to be runs |
| C134 | the formulas of `e_inverse`, `propagator_sol`, `haskell` as syntax trees, one node per operation; every operation is accurate up to a relative ε (also π, the arguments, shared subexpressions) | inexact evaluation of a tree tends to its value if no divisor vanishes and no radicand is ≤ 0 in exact arithmetic (structural induction); C61's nonvanishing denominator gives that for propagating models; linearity of the inverse FFT; a second structural induction bounds the error by C·ε for small ε |
| C135 | C134's runs, an inexact filter step and C131's runs, one after the other | continuity of the water-level deconvolution (C129) and its rounding bound (C131), with constants that are uniform near the exact traces; C52 for the session; the same with C·ε, for filters that keep errors proportional |
| C136 | `fwd_seis` as a function on a normed space of parameters (slowness, sampling interval, all layers); sessions as in C130 | every entry of the propagators is differentiable where both waves propagate, the denominator does not vanish (C61); isBigO of a differentiable function at a point; explicit bounds C129 for the water level |
| C137 | `deconv_iterative` and `run_deconvolution` with the default method as functions of the traces and of the Earth model; clear and steady runs specified through the misfit alone (Spec/Ties) | the greedy run is followed along fixed lags, whose spikes are differentiable functions of the traces; strict inequalities persist nearby; a last iteration that finds nothing is bounded by the size of the correlations; at a two-sample tie both runs are computed |
| C138 | synthetics and best fit of the waveform fitting as functions of all six model parameters | the Earth model of a grid point is differentiable in thickness, velocities, Moho depth and Vp/Vs; composed with C137; the misfit and correlation at the nearest grid point bound the best ones (C114), serial and parallel |
| C139 | `IterOut` = the relation `IterRun` (C132) completed by the last filter, the shift and the cut; `SynthIterRun` = forward modelling, filters and iterative deconvolution in inexact arithmetic | each computed quantity is exact up to O(δ) along a filter of runs (`Near`, closed under sums, products, quotients, finite sums); induction over the passes of a run without ties: strict gaps keep the lag and the stopping decision, a last pass that finds nothing adds O(δ) whichever lag it takes |
| C140 | a whole synthetic experiment in arithmetic of precision ε: forward modelling, filters, deconvolution (both methods) and hkSynth; the resonance filter followed by hkYu; hkSeqSynth; hk and hkSeq (single traces and stacked) on streams within a multiple of ε of the exact ones | composition of the rounding theorems C139, C135, C133, C115, C95, C105, C116; a decision that is not a tie in exact arithmetic keeps a positive distance from a tie, so a threshold δ on ε exists below which every computation decides alike, with errors at most C ε |
| C141 | `hkSeq`, `hkSeqSynth`: both stages, over `F` with NaN and over reals with NaN | NaN or imaginary P/S legs followed through the sums of the two layers' times and through argmin; clipping of the Moho table |
| C142 | the waveform fit (serial and parallel) in an arithmetic of precision ε against the exact criteria of given exact records | `wave_core`: continuity of misfit, correlation and signs at varying records without zeros, rounding bounds of C126, a uniform constant over the finite grid, finitely many gaps between the values; parallel by `c37_rounded` |
| C143 | small noise in the recorded seismograms and rounding together leave a clear H-k answer unchanged | `Spec/Recording.lean` bundles a recording, the two deconvolution methods and what it means that they are clear; the noise enters c139/c135 (deconvolution), whose output error enters c140 (stacking); `c143_hk` composes the two over all events with one constant |
| C144 | noise in the recordings leaves a clear H-k answer unchanged also when the receiver functions are averaged first (stack=True) | `Spec/Average.lean` states what the average is and how exactly it is computed; the noise enters the deconvolutions as in C143, the average of near records is near the average (`average_near`), and the averaged trace enters the one-trace case of C140; `c144_hk`, and `c144_hkSeq` for the two stages |
| C145 | noise in the recordings leaves the best models of the waveform fit unchanged | `RecordedData` ties the stack of the call to noisy recordings, `FitCall` the rest of the call to the exact fit; the noise goes through C143's deconvolution and C144's average into C142: `c145_waveform`, `c145_parallel`; `c145_exact` shows that the exact receiver functions are among the computed ones, for every tolerance |
| C146 | noise in the recordings of a stack leaves the best model of the modified H-k method unchanged | the averaged noisy receiver functions (C144's `AverageWithin`) are near the stack the exact filter keeps, and go through C140's resonance filter and `hkYu`: `c146_hkYu` |
| C147 | raising the iteration limit or lowering the stopping threshold only continues the iterative deconvolution | step-by-step simulation of the two loops up to the last state of the shorter run, then the loop of the longer one keeps what is written: `c147_more_iterations`, `c147_stop_early`, `c147_never_worse` |
| C148 | raising the water level trades fit for stability | Parseval for the real part of a signal whose spectrum is weighted by real symmetric factors; the factors 1-|W|^2/max and 1/max are monotone in the level: `c148_water_level`; levels of one and more: `c148_high_level` |
| C149 | a wider Gaussian lets more through | the Gaussian response is monotone in the width at every frequency; Parseval as in C148: `c149_filter`, `c149_water` |
| C150 | Raising a weight favours its phase | from the linearity of C93: the two maxima give opposite inequalities whose sum is the claim for the stack made with the difference of the weights |
| C151 | The weights with which a model wins form a convex set | equal best coordinates mean the same row of the two tables (equal cells have equal values and the first maximum is taken), then both first maxima add; from the linearity of C93 and, for the waveform fit, of the goodness of fit |
| C152 | Raising the weight of a criterion never makes the overall best model worse in it | the maximality of the two overall best models gives two inequalities whose sum is the claim |
| C153 | Small changes of the weights cannot change a clear answer | the cell values are linear in the weights (C93) and bounded by the weights times the largest sample, so the change of a cell is bounded by the change of the weights |
| C154 | Small changes of the weights cannot change a clear overall best model of the waveform fit | the normalised criteria are bounded, so the change of a score is bounded by the change of the weights |
| C155 | Mixing weights never makes the best fit better than mixing the best fits | the values are linear in the weights (C93), so the largest value is a maximum of linear functions |
| C156 | A few bad traces cannot change a clear answer | without pre-stacking the table is a sum over the traces (C04, C92), and a trace contributes at most the weights times its largest sample |
| C157– | see properties.jsonl | |

(The final status of each claim is in MANIFEST.json and section 6.)

## 4. Disagreements found between documentation and code

Recorded as theorems about the model of the code as it is (see section 6 for
theorem names).

1. `hkSeq` never accumulates over traces (C19).
2. `hkYu(None weights)` raises TypeError (C13).
3. `PlotWaveformFitting` ignores its weights (C41).
4. `plotbestmodel` silently adds all-zero solutions (C42).
5. `hk` uses the first trace's time axis for all traces (C07, C15).
6. `hkSeq` uses the sediment time axis and the Moho mean slowness for both (C22).
7. `plothk` fails with UnboundLocalError for unknown layers, after mutation (C18).
8. `stkMoho` is clipped even with `rmneg=False` (C21).
9. `deconv_iterative` drops the last misfit from `rms` (C53).
10. `phaseshift` divides by zero for shifts that are odd multiples of nfft/4 (C56).
11. multiprocess extraction includes partially covered windows (C50).
12. goodness of fit is inverted when all correlations / PG are negative (C40).
13. the receiver function is NaN when the denominator trace is dead (C53), and
    zero without any message when the slowness is post-critical in any layer
    (default method) or NaN (water level) (C73, C79).
14. a one-layer model ignores its thickness, and in other models the last
    layer's thickness only delays the synthetics (C75, C78).
15. sample `j` of a synthetic seismogram belongs to time `(j+1) dt` (C61).
16. `ResonanceFilt` finds a trough in every trace that is not a straight line,
    so `hkYu` always finds a sediment layer (C64, C68).
17. the legend of the H-k figures prints `K + 0.001` (C80), and the shaded ranges of
    unstacked figures surround the times of the last trace only (C107).
18. in the waveform figure the band is one standard deviation *over time* of
    the stack, not over the events; the serial figure takes the axes from the
    first and last grid value, the parallel one from the minimum and maximum
    (C81).
19. a failing `run_fwd` leaves the object with empty streams, and filtering is
    in place, so that two `run_deconvolution` calls with a pre-filter differ (C52).
20. `ExtractEq` compares with the first trace of a file only, so events in later
    segments of a file with gaps are lost; the parallel version keeps them (C50).
    An output file inside the data directory is read by the next run (C82).
21. `save_*` called by two processes can raise FileExistsError although the
    directory then exists (C63); `install_examples` fails after the installed
    directory was removed in the same process, because `distutils` remembers
    the directories it created (C63).
22. the waveform fitting band-passes the synthetics twice, and a slowness beyond the
    critical one (e.g. in s/°) is not noticed: the first grid point is reported (C87).
23. `raw_data_example` names a directory (`data/Raw_Data`) that is not in the
    repository (only observed; not a property).
24. the waveform fitting looks for the sample whose computed time *equals* 0: at
    sampling rates such as 49 per second rounding makes it raise IndexError (C122).
25. which model is best overall in the waveform fitting depends on the other grid
    points, because the criteria are scaled by their maxima over the grid (C101).
26. figures of different stations or methods can replace each other: `plothkYu`, the
    resonance-filter figures and the synthetic ones do not contain the station, and
    `plothk` and `plotSeqhk` use the same name for the Moho (C125).

## 5. Trusted base

* Lean 4.33.0 kernel, Mathlib (source `/app/mathlib4-4.33.0`), and the three
  standard axioms `propext`, `Classical.choice`, `Quot.sound`; no own axioms.
* The reading of the Python source, numpy, scipy, obspy, rf semantics stated in
  the comments of each definition.
* Parameters standing for external code: section 7.

## 6. Status

Every property of properties.jsonl has its theorems in MANIFEST.json (generated
from the theorem names `cNN_…` by `tools/manifest.py`).  Where the English
property, read naively, is false of the code, the property states what the code
does and one of the theorems refutes the naive reading: C07 (`c07_needs_shared_axis`),
C09 (`c09_ps_alone_ambiguous`), C13, C19 (`c19_not_the_sum`), C22
(`c22_wrong_sample`), C40 (`c40_inverted`), C41 (`c41_refuted`), C42
(`c42_spurious_best`), C50 (`c50_differ`), C52 (`c52_not_repeatable`), C63
(`c63_race`, `c63_removed`), C82 (`c82_self_feeding`).

Not expressed in the model: rounding inside the libraries (`np.fft`, obspy filters:
one step each, C131–C135), the size of the error constants of the forward modelling (C134 and C135 show that
they exist for each model), speed, memory, the
pixels of figures, the contents of notebooks and docs.

## 7. External parameters and simplifications

Nothing below is an axiom: each is a parameter of the model (theorems quantify
over it) or a definition that states the assumed behaviour.

* `Env` (stacking): one degree in km, `rfstream.stack()`, the preview figure
  (may raise), `plt.savefig` (may raise).  `WEnv` (waveform fitting): stacked R
  component, synthetic receiver function (as a parameter for C36–C45, C69–C71;
  filled with the model of `synrf` for C87), obspy's phase misfit `pg`,
  drawing (may raise).
* Python's `float.__pow__` raises `OverflowError` when the result is too large;
  `x**2` is modelled as `x*x` without that, so statements "no ray parameter makes
  the call fail" (C25, C104) are about ray parameters and velocities whose square is
  representable (|x| < 1.3e154).
* `argmin`, `argmax`, `mean`, `arange`, `detrend(type='linear')` (as the
  subtraction of the least-squares line in closed form), `correlate`,
  `find_peaks` (including plateaus), `fft`/`ifft` (finite sums) are
  definitions in `Verif/Py` following the documented numpy/scipy algorithms.
* `synrf` and deconvolution: exact real arithmetic; NaN is a flag (`Option`,
  `Samples.nan`) and appears exactly where the modelled expressions divide by
  zero or take the root of a negative number.  Not flagged: `phaseshift`
  and the water-level misfit when their divisor is zero (Lean's `z/0 = 0`;
  the theorems that speak of values exclude it, `c56_excluded`), and
  `gaussian = 0`.  The band-pass of obspy is a parameter `bp` (may raise; keeps or
  changes the data).  Velocities and densities are numpy arrays, `dt` a Python
  float.
* NaN autocorrelation of a constant trace is shown as zeros (`c64_straight_line`
  says what happens).
* Extraction: obspy's time arithmetic (nanosecond integers, `tick`),
  `gps2dist_azimuth`, `kilometers2degrees`, TauPy travel times, `Stream.slice`,
  the HDF5 encoding of a stream are parameters; the glob pattern is a prefix without
  wildcards followed by `*`.  `multiprocessing.Pool` is a transition system of
  workers taking chunks in any order, any of which may be killed (C109).
* `util`: the file system is a map from paths to directories and files;
  symbolic links (`preserve_symlinks=1`), permissions and time stamps are
  left out; `copy_tree`, `mkpath` and `copy_file` follow CPython's distutils including
  `_path_created`.

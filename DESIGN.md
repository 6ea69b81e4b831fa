# Design: a Lean 4 model of simim

This document says what is modelled, how each property of `properties.jsonl`
is stated and proved, and what has to be trusted.

## 1. Layout

All Lean code is under `lean/Verif/`.

| directory | content |
|---|---|
| `Verif/Model/*.lean`  | the model: one Lean function per Python function (or per block of a long function), each with a comment citing file and lines in `/repo` |
| `Verif/Spec/*.lean`   | small independent specifications used in statements (what "tiles", "row-aligned", "periodic image" mean); they do not mention model helpers |
| `Verif/Lemmas/*.lean` | helper lemmas |
| `Verif/Props/*.lean`  | the property theorems, named `Cnn_...`, with a non-vacuity `example` next to each of them |

## 2. Conventions of the model

* Python exceptions are values: a function that can raise returns
  `Except Err α`.  When Python mutates state before raising, the model returns the
  state *and* the outcome (`State × Except Err α`), so "what is left behind after
  an exception" can be stated.
* Numbers are exact: arrays hold elements of an arbitrary linearly ordered field
  (or `ℚ`/`ℝ`/`ℂ`/`ℤ` where noted).  Floating-point rounding is not modelled.
  `np.round(x, 1)`, `np.ceil`, `%` and integer indices are modelled exactly.
* NaN is modelled where the code distinguishes it (`Option`, `none` = NaN,
  comparing false with everything).
* HDF5 files are association maps from dataset names to arrays and attributes;
  text files are strings / lists of lines; a crash is a prefix of the list of
  writes a function performs.
* Random numbers are inputs of the model (universally quantified).
* Prompts are a list of user answers (universally quantified); running out of
  answers is reported as "still waiting".
* Printing, plotting, warnings and progress bars are not modelled, except that a
  warning does not stop execution.

## 3. Trusted base

* Lean 4.33.0's kernel, and Mathlib as installed.
* Axioms: at most `propext`, `Classical.choice`, `Quot.sound` (checked by `vcheck`).
  No `sorry`, no `native_decide`, no `bv_decide`, no own axioms.
* That the model's definitions say what the cited Python lines do.  Nothing in
  this sandbox can run the Python; the tie is by reading.  numpy/scipy/h5py/astropy
  calls are modelled by their documented behaviour.
* Excluded: floating point rounding and overflow, integer overflow, memory use, performance,
  concurrency of several processes on one file (except for the registry of paths, C130), plotting and animation, the network.

## 4. Plan per property

"Model" names the Python code modelled; "Proof" the shape of the theorem.
Where reading the code shows the property to be false, the plan is: prove the
negation with a concrete witness, and prove the strongest true part as `..._partial`.

| id | model | proof |
|---|---|---|
| C01 | `_newsimpath` and siblings, `_checkload_path_file` on characters | refinement of registry file to a map (`last registration wins`), round trip of the text encoding for names/paths without blanks; negation with a path containing a space |
| C02 | same, with prompt answers | case analysis on each branch, induction on the answers |
| C03 | `set_property_range` | invariant by induction over the list of calls against the spec "filter by all ranges since last reset" |
| C04 | `return_property` | gather lemma: row i is the i-th active object |
| C05 | `load_property`, `unload_property`, `return_property` | invariant "cache agrees with disk" by induction over operations |
| C06 | all Handler operations | negation (make; unload; return gives nothing) and partial for histories that unload only saved properties |
| C07 | `make_property` | gather/scatter lemmas |
| C08 | all Handler operations | frame theorems per operation lifted to histories |
| C09 | `evaluate_all`, `return_property` | algebra with integer powers |
| C10 | `z_to_snap` | search lemma for `digitize`; negation at the last edge and below the first edge |
| C11 | `get_mass_index` + `format` | count lemma on sorted lists; negation below the lowest cut |
| C12 | `format` (per-snapshot block) | sort is a permutation, shared by all fields |
| C13 | `format` (mass cuts) | index = count on sorted list |
| C14 | `format` (cases 1-3) | induction over runs against a map spec |
| C15 | `format` as a list of file effects | all prefixes; negation for "metadata never lists a snapshot without data" |
| C16 | `dif_snap`, `dif_lowerz_snap`, `dif_higherz_snap` and the chain in `download_meta` | inverse function argument over monotone maps |
| C17 | `Grid.__init__`, `_axis_edges` | algebra over ordered fields; negation for coverage (rounding to one decimal) |
| C18,C19 | `add_from_cat` | finite sums; permutation and append invariance |
| C20 | `sample` | same cell lookup |
| C21 | `pad`, `_unpad` | list lemmas; negation for a list of axes such as `[1]` |
| C22 | `crop` | filter lemmas; negation for limits between two centres |
| C23 | `fourier_transform` | discrete Fourier inversion including shifts and pixel factors |
| C24 | `power_spectrum` | flag restoration state machine plus inversion |
| C25 | `collapse_dimension` | finite sums; negation for several axes |
| C26 | `spherical_average` | bin lookup; negation for the last shell |
| C27 | `add_from_spec_func` | induction over chunks |
| C28 | `copy`, `copy_axes`, `sum_properties` | case analysis; negation for several properties |
| C29-C33 | `build_lightcones` position pipeline, selection, slices, ordering, index tables, `add_properties` | vector algebra over `ℝ`, floor-mod lemmas, partition of intervals, sortedness by induction over slices |
| C34 | `build_lightcones`/`add_properties` as lists of file effects | all prefixes; negation for rerun after a crash while adding properties |
| C35 | `GenericLCMaker.__init__` overwrite logic | case analysis and induction over answers |
| C36 | `SphereMaker` | floor-mod lemmas |
| C37 | `volume` | algebra; negation for the box-in-circle check |
| C38 | `eval_stat_evo` | state restoration; negations for edge objects and the active count |
| C39 | `Instrument` state machine | invariant over histories |
| C40 | `_find_spatial_clones`, `_find_pointing_clones`, `map_fields`, `sample_fields` | partition lemma and refinement to per-detector evaluation |
| C41 | `add_detector`, `add_field`, `del_*` | invariants over histories; negation for names |
| C42 | `add_field`, `map_fields` | negation plus partial |
| C43 | `am_dfcat`, `am_dfdf` | monotonicity; negation for the top halo |
| C44 | `MultiProp`, `Prop` | case analysis; negation for per-property `h_dependence` |
| C45 | `keating16`, `pullen13`, `lidz11`, `f_duty`, `b17_sfr` | case analysis over masks |
| C46 | `log10normal` and callers, generator as explicit state | non-interference; negation for two models |
| C47 | `_loadObjects` | induction over chunks |
| C48 | the field tables | last-entry-wins dictionary; negation |
| C49 | `download_meta` | sorting; negation for unsorted servers |
| C50 | `Handler.__init__` after any history | refinement: the reopened object equals the spec of the file; negation for properties only in memory |
| C51 | `write_property` | round trip through the file |
| C52 | `build_lightcones` minimum mass | chain of inequalities through the mass-cut table; negation between M and M/h |
| C53, C77, C78, C81, C82 | `SimHandler.make_property`, `delete_property`, `set_property_range` | induction over snapshots; frame theorems for refused calls |
| C54, C79, C80, C83 | `initialize_all_snaps`, `get_snap`, `snap_stat`, `number_volumes` | case analysis; negations |
| C55 | `format` on two raw catalogues | equality of the results of two runs |
| C56, C57 | `save`, `LoadGrid` | round trip |
| C58, C59, C63 | axes of Fourier space | algebra, discrete Fourier transform of plane waves |
| C60 | all `Grid` operations | invariant over histories |
| C61, C62 | `scale_axis`, `down_sample` | algebra; negations |
| C64, C65 | `power_spectrum`, `spherical_average` | invariants; negations |
| C66-C68 | `build_lightcones`: boxes visited, line of sight, slices | geometry over `ℝ`; negation where the buffer is too small |
| C69, C74 | `get_LCIterator`, `LCIterator` | case analysis over file lists |
| C70-C72 | `SphereMaker` | trigonometry over `ℝ`; file effects of refused calls |
| C73 | `eval_stat_evo` keywords | dictionary lemmas |
| C75, C76 | `_setup_beam`, `_set_response` | case analysis, refinement to a spec of beams |
| C84, C85 | `_bin_loader`, Uchuu `_loader` | row alignment |
| C86, C87 | `am_dfcat`, `am_dfdf` | inverse functions; negations for the options |
| C88-C90 | all galaxy property functions | evaluation of one galaxy alone against the array |
| C91-C93 | `modified_schechter_gen`, `double_power_law_gen`, `schechter_gen`, `double_schechter_gen` | sums over the table; integrals (Mathlib) for the Schechter functions and the recursion of the incomplete gamma function |
| C94-C96 | `g13irlf_base`, `bethermin17_base` | interpolation lemmas; prefixes of the list of file effects |
| C97-C100 | `Gridder`, `GridFromAxes`, `GridFromAxesAndFunction`, `SnapHandler.grid`, `LCHandler.grid` | composition of C17, C18 with the choice of the region; rounding to floating point as a parameter for the axes |
| C101, C102 | `PSF`, `SpectralPSF` | real exponentials; symmetry of cell centres |
| C103 | `Grid.convolve` | the sum computed by `fftconvolve`; cells of the padding do not contribute; sums over cells exchanged |
| C104 | `gauss_psf`, `gauss_psf_freq_dependent`, `gauss_response`, `boxcar_response`, `zero_noise`, `white_noise`, `_check_shape` | exponentials rewritten as powers of one half; counts of channels as sums over intervals; noise by induction over the draws of a generator |
| C105 | `_setup_beam`, the body of `map_fields` with real grids | composition of C17 (grid of the beam), C103 (convolution channel by channel) and C25 (weighted average) |
| C106 | `download` of the three kinds of catalogues, with the disk and each step of writing a file | existing files are never written; prefixes of the list of steps split at even and odd positions; `str.replace` by induction over the text |
| C107 | `clean_raw`, the deletions in `format`, `_get_rawsnapfiles`, words of a shell command | decision logic over paths as lists of characters; file names are different because numbers are |
| C108 | `SimCatalogs.__init__`, the files saved by `download_meta`, the reports of missing data | case analysis over the steps; later calls by induction |
| C109 | `behroozi13_base` with its tables, splines (bilinear, `s=0`, degree 1) and files | the sorted axes by induction; interpolation between neighbours; the steps of writing as a list, interrupted after any number of them |
| C110 | every property of `galprops_builtin.py`: the function behind it, its keyword arguments, `evaluate` and `make_property` | composition of C07, C44, C88-C95 and C109: each relation as a function of one halo in the specification |
| C111 | `plot`, `hist`, the default dictionary shared between calls | the points from C04; independence of earlier calls by induction over the calls |
| C112 | `extract_keys`, the lists returned being the handler's own | invariant by induction over the calls |
| C113 | `visualize`, `animate`, `_axis_edges`; matplotlib's `pcolormesh` as a mesh with the shape checks it makes | refinement: every value of the mesh is a sum over the cells at these indices; general lemma about sums of an array over the axes not kept |
| C114 | `LCHandler.animate`: columns read from the handler, scales of colours and sizes, slides, sizes of the markers in each frame | refinement to visibility by interval; properties of the slides by floor and ceiling |
| C115 | the search for the maximum of a response (logarithms of frequencies, exact numbers), `plot_detector_response`, `plot_spectral_response` | invariant by induction over the rounds: the maximum is inside the interval and the distance to it halves; continuity of 10^x for the end of the search; refinement for the panels |
| C116 | the rest of `spherical_average`: standard deviations, logarithmic shells | refinement on top of C26: same filter of the cells; algebra of lists for the variance; witness with rational complex numbers |
| C117 | opening a formatted file (`SimHandler.__init__`), joining the models of `format` and of the handlers | composition: invariants of the history of runs (C14) give a well-formed file, to which the invariants of handlers (C03, C05) apply; counting through the permutation of halos |
| C118 | what `LCMaker` reads from a formatted file, joining the models of `format` and of lightcones | composition of C14 (groups are complete), C29 (objects are images of halos read), C33 (added properties), C34 (files) and C52 (minimum mass) |
| C119 | opening a lightcone (`LCHandler.__init__`), joining the models of lightcone files and of handlers | invariant of the files over all prefixes of all calls (lengths, attributes, frame of old datasets), to which the invariants of handlers apply; composition with C33, C34 and C118 |
| C120 | maps of opened lightcones (`LCHandler.grid` on what `LCMaker` wrote) | composition of C119 (what a handler shows), C100 (cells of the map) and C30 (geometry of the objects); count of the objects in the default map; counterexample: a flattened circular lightcone |
| C121 | calls for sets of lightcones (`LCIterator`): opening, the loop over the handlers with the shared keywords | induction over the lightcones and over sequences of calls, some of which raise; composition with C119 and C74; relation between dictionaries of keywords for statistics in bins |
| C122 | the bytes of binary UniverseMachine catalogues: record type, offsets, `np.fromfile`, and the loader on top | round trip between an independent encoder and the reader for all bit patterns; IEEE numbers as rationals to show what the wrong type gives |
| C123 | the text of text UniverseMachine catalogues: `np.loadtxt` as called (lines, comments, words, integers), and the loader on top | round trip between an independent writer and the reader; classification of what is read from every prefix of a file |
| C124 | `b17_smfpars` and its table of published functions, real numbers | the table is the published one entry by entry; the interpolation lemma for ascending nodes; every redshift is between two entries or outside; counterexample for every cosmology by the generic loss of the heaviest halo |
| C125 | an instrument whose fields, beams and maps are grids: the open operations of the instrument's model replaced by `setupBeam`, `convolveNew`, `collapseNew` and `sample` of the grids | composition of C39/C40, C105 and C20, with totality of the loops over groups of detectors; failure for integer positions for every instrument |
| C126 | the two nested loops that draw lines of sight and the checks of `LCMaker.__init__`, real numbers | exact condition for the existence of an accepted draw (the diagonal has the most room); an open set of triples of draws after which the loops have ended, hence a geometric bound on the probability (product measures); counterexamples for whole families of accepted requests |
| C127 | the chain `LCHandler.grid`, `Gridder`, `Instrument.add_field`, `map_fields`, `sample_fields` | composition of C120 and C125; the smeared sky is linear in the cells, each object is in at most one cell, induction on the objects; counterexample for the units with an opened lightcone |
| C128 | `scale_axis` with units, on grids whose arrays of units have entries of a fixed number of letters or hold objects | induction over the axes, commuting with the rescaling of C61; invariant (no label longer than the entries) over histories of calls; what is cut off for every longer unit |
| C129 | the writes of `format` one by one, any prefix of them; opening with `SimHandler`/`SnapHandler` | invariant over histories of interrupted calls: every group is part of one raw snapshot in one order; reading such a group; an interruption point for every catalogue, and what later calls make of it from C14 |
| C130 | any number of `_SimIMPaths` objects taking turns at accesses to the files of one disk | invariant of all schedules, relating files and sessions to the log of what was reported; counterexamples for every reachable state |
| C131 | what is on disk after any part of the text of a registration or of the root file was written | loading files with a torn last line; exact condition; invariant over all schedules that no session can begin |
| C132 | `add_field`, `_check_grid_detector_compatibility`, the default size of a beam | decision logic as an iff; invariant over all histories of calls |
| C133 | `Model/HandlerShared`: one file, handlers by number, turns (open or call) in any order, each call seeing the file as it is then. | Induction over the turns with the handler invariant less "what is listed as saved is there"; for handlers that keep apart a simulation: equal but for the file and the saved list outside the properties used. Failures in general, and a witness for the units. |
| C134 | `Model/Places`: how the constructors of catalogues, simulations, lightcone makers and lightcones, and `setupsimim`, use the registries on disk. | Induction over sequences of programs, on top of the invariant of C01; the notebook of what was reported is the specification. Exact result for directories with blanks. |
| C135 | No new definitions: `Handler` (make, any calls), `LCGrid`, `Instrument`. | Induction over the calls after the property is made (invariant: in memory only, or on disk); then the steps of C127, which are stated for any catalogue of sources. Negation by a changed selection. |
| C136 | No new definitions: `GridFT` (fourier_transform, power_spectrum), `GridAdd`. | The chain of one-dimensional transforms as one sum over cells (induction over the axes); orthogonality of the waves on each axis for Parseval; independence of the space by counting how often each axis is transformed. |
| C137 | No new definitions: `GridFT`, `GridSphere`. | Composition of C136 with C26 on the grid that power_spectrum returns (shown to be regular, with the transformed axes marked); disjointness of the shells for the total. Negation by a map with power in the last shell. |
| C138 | No new definitions: `Format`, `LCSource`, `LCFile`, `LCOpen`. | C129 (every group is part of the raw data of one call) in place of C14 in the argument of C118 and C119, which are now stated for any file whose columns read as raw data; negation by the example of C118 interrupted before its last field. |
| C139 | No new definitions: `Galprops` over the reals. | The generators become random variables whose numbers have the standard normal law or the even law on [0, 1]; the moment generating function of the normal law gives the average, its symmetry the median; linearity of the integral gives totals. |
| C140 | No new definitions: `Galprops` over the reals. | The specification states the relations between logarithms and its own tables; each mean is shown to solve its relation, the relations to be strictly increasing. |
| C141 | No new definitions: `Galprops` over the reals. | C45 gives the flags and rates as functions of one normal and two even numbers; independence turns chances into products. |
| C142 | No new definitions: `LumFun` over the reals. | Explicit bounds on exponentials and powers; the tables and the interpolation are shown to scale with units and amplitude. |
| C143 | No new definitions: `Ready` over the reals. | C110 gives the value of each halo as a function of its random numbers; means of scattered and switched values, products for independent numbers. |
| C144 | No new definitions: `Ready`, `Handler` and `HGrid` over the reals. | Making keeps positions and selection, so C100 applies to every outcome with the same axes; linearity of the average, by induction over the objects. |
| C145 | No new definitions: `Ready`, `Handler` and `HGrid` over the reals. | One form for the values of all properties (switch times power of ten of a normal number); squares have the same form; variances of independent values add. |
| C146 | No new definitions: `Ready`, `HGrid` and `Inst` over the reals. | Each outcome is observed as in C127; what is received is linear in the light of each object, so the average is received of the average light; sample by sample. |
| C147 | No new definitions: `Format`, `LC`, `Handler`, `HGrid` and `Inst` together. | What the handler of a lightcone shows after interrupted formatting (C138) meets the hypotheses of C127; angles and redshifts from the rows of the lightcone. |
| C148 | No new definitions: `Ready`, `HGrid` and `Inst` over the reals. | Each outcome is observed as in C146; a sample is its noise plus a sum over the objects of their light times the gain of one unit of light; the covariance of two such sums of pairwise independent numbers is the sum of products of gains and variances. |
| C149 | `sample_fields` with the noise functions of `Response`; random numbers are the generators of each field and detector. | The loop over groups of detectors succeeds or fails whatever lists of the right length it adds to; sample by sample the result is the noise plus the signal; laws and independence of affine functions of the draws; variances of sums of independent numbers. |
| C150 | As C149, with a state of the instrument for each outcome of the sky. | Each sample is signal plus noise (C149); covariances of sums of functions of the two factors of a product measure. |
| C151 | The chain of C148 with the noise of C149. | C148 for the samples without noise, C150 for the noise; adding and mapping a field leave the detectors as they are. |
| C152 | As C149, with the states of one generator handed on in the order of the calls. | Each call takes a block of numbers; places of different samples in the stream are different; independence of a subfamily. |
| C153 | As C149, with `sample_signal=False`. | The loop over the fields gives, field by field, the lists of the noise; the same numbers as in C149. |
| C154 | As C152, with two calls. | Places in the stream of the first call are before its end, those of the second after it; independence of a subfamily. |

## 5. What is modelled and what is not

| file | modelled | not modelled |
|---|---|---|
| `_paths.py` | all | creation of folders beyond their existence |
| `_handlers.py` | construction, loading, returning, making, writing, deleting, selecting, statistics, plots, histograms, lists of names | drawing by matplotlib |
| `galprops/galprops.py` | all | |
| `galprops/galprops_builtin.py` | all; the aliases are the properties they name | |
| `galprops/log10normal.py`, `line_*.py` | all functions; logarithm, exponential, error function and powers are parameters with the laws that are needed | values where numpy gives infinities |
| `galprops/sfr_behroozi13.py` | 1-215, 217-268 (the splines of degree 1 without smoothing as bilinear interpolation) | plot; parsing of the text file |
| `galprops/sfr_ir.py`, `sfr_bethermin17.py` | all | distances and volumes of the cosmologies (parameters) |
| `galprops/galprops_am.py` | all, including scipy's `rv_continuous` wrapper (see below) | quadrature error: integrals are exact or sums as in the code |
| `siminterface/_rawsiminterface.py` | `Snapshot`, `__init__`, `format`, `clean_raw` | the texts of the messages; characters with a meaning to the shell other than the space |
| `siminterface/illustris.py`, `universemachine.py`, `uchuu.py` | field tables, loaders, the tables and files of `download_meta`, `download` (which files are fetched where, step by step), `_get_rawsnapfiles`, the reports of missing data | what the network sends, how a floating point number is read from a word of a text catalogue |
| `siminterface/_illustris_datahandling.py` | `_gcPath`, `_loadObjects` and callers | `_offsetPath` (a folder that nothing here writes) |
| `siminterface/simhandler.py` | all | messages |
| `lightcone/lcmaker.py` | all | |
| `lightcone/lchandler.py` | construction, volume, statistics, grid, iterators, animation | figures of `animate` other than positions, sizes, titles |
| `map/gridder.py` | all of `Grid` except as listed, `Gridder`, `LoadGrid`, `PSF`, `SpectralPSF`, `GridFromAxes`, `GridFromAxesAndFunction` | colours and logarithmic scales of `visualize` and `animate` |
| `instrument/*.py` | detectors, fields, maps, samples; response and noise functions (as parameters of the instrument, and the built-in ones), the map of one detector computed with grids; reference frequencies; plots of responses | colours and labels of plots |

Behaviour of libraries that is assumed (documented behaviour, not derived): numpy indexing, broadcasting,
`digitize`, `histogramdd`, `round`, `argsort` (stable where ties matter); `np.fft` as the discrete Fourier
transform; h5py groups as dictionaries, each write reaching the disk before the next; scipy's interpolation as
piecewise linear; `scipy.stats.rv_continuous` as in versions since 1.6 (`argsreduce` passes the parameters
unchanged as arrays of length one when not all values are inside the support, and as arrays of the length of
the values otherwise); astropy's cosmology as functions that are monotone where this is said.

An observation outside the statements: the theorems about `format` assume that the metadata lists the snapshots
that are formatted (`Sound.listed`). Downloading metadata for a subset and formatting others violates this.

## 6. Tests against wrong programs

`seeded/LOG.jsonl` has one line per edit of the model (made in a scratch copy): `definition` and `file` that were
edited, the `edit`, the `claim` it breaks, `failed` (the theorems whose proofs do not go through any more),
`property_theorems_blocked` (property theorems that depend on one of these and therefore do not build),
`lemmas_still_true_and_assumed` (helper lemmas that remain true and were assumed to reach the theorems behind
them), and `tightened` (theorems that were added or strengthened because the edit had survived).

## 7. Results per property

`proved`: the property holds of the model as stated. `partial`: only a part holds or is proved; the
full statement is kept as `Cnn_full` (with `Cnn_full_false` where it is false of the code), and the note says
what is missing. Theorem names are relative to the namespace `Verif`.

### C01 (partial) — Registered data paths are found again by later sessions

Proved for all clean names and paths (no blank, no line break) and all histories. False in full: a line of the registry is cut at blanks, so a name or path with a blank comes back shortened, and one with a line break stops later sessions (C01_full_false, C01_linebreak_blocks_sessions).

Theorems: `Paths.C01_reload_partial`, `Paths.C01_session_partial`, `Paths.C01_full_false`, `Paths.C01_linebreak_blocks_sessions`

### C02 (proved) — Registering one name leaves all others alone, and a declined overwrite changes nothing



Theorems: `Paths.C02_frame`, `Paths.C02_declined`, `Paths.C02_unanswered`, `Paths.C02_accepted`, `Paths.C02_no_root`

### C03 (proved) — The active selection is exactly the objects passing every range set since the last reset



Theorems: `Handler.C03_active_selection`, `Handler.C03_restrict_step`, `Handler.C03_refused`

### C04 (proved) — Properties returned under one selection stay row-aligned



Theorems: `Handler.C04_row_alignment`, `Handler.C04_same_object`

### C05 (proved) — Loading and unloading are invisible to readers



Theorems: `Handler.C05_reads_file_values`, `Handler.C05_history_invisible`

### C06 (partial) — A property the handler claims to have can be returned

False after unloading a generated property (C06_full_false); proved for histories that unload only saved properties.

Theorems: `Handler.C06_claimed_returned_partial`, `Handler.C06_full_false`

### C07 (partial) — Generated properties carry the function's values on the selection and NaN elsewhere

Proved for every function returning float arrays; functions returning integers make the call fail (C07_full_false).

Theorems: `Handler.C07_values`, `Handler.C07_rowwise`, `Handler.C07_full_false`

### C08 (partial) — The file on disk is only changed by explicit writes, and never by overwriting silently

Silent overwrite is possible with two handlers on one file (C08_full_false) and the restricted-selection guard fails for one-object catalogues (C08_restricted_full_false).

Theorems: `Handler.C08_no_write_no_change`, `Handler.C08_touches_only_named`, `Handler.C08_no_silent_overwrite_partial`, `Handler.C08_full_false`, `Handler.C08_restricted_refused_partial`, `Handler.C08_restricted_full_false`

### C09 (partial) — h-unit conversion round-trips

Reading back is exact for every power of h. A function that returns several properties as a tuple, in physical units and with a power of h other than zero, cannot be used: line 132 of galprops.py assigns to an entry of the tuple (C09_tuple_fails, for every catalogue and function).

Theorems: `Handler.C09_units`, `Handler.C09_roundtrip_partial`, `Handler.C09_tuple_fails`, `Handler.C09_full_false`

### C10 (partial) — A redshift is mapped to the snapshot that covers it

False at the highest edge (IndexError) and below the lowest edge of tables that do not start at zero (wraps to the highest redshift); proved for all other redshifts.

Theorems: `Sim.C10_lookup_partial`, `Sim.C10_top_edge_fails`, `Sim.C10_below_range_wraps`, `Sim.C10_full_false`, `Sim.C10_metadata_of_snapshot`, `Sim.C10_lookup_metadata`, `Sim.C16_lookup`

### C11 (partial) — Mass-limited reads lose no halo above the limit

False without h units for every 0<h<1 (the limit is divided by h instead of multiplied), below the lowest cut and above the highest; proved in h units between the cuts.

Theorems: `Sim.C11_rows_read`, `Sim.C11_nothing_lost_partial`, `Sim.C11_no_h_partial`, `Sim.C11_no_h_loses`, `Sim.C11_below_lowest_loses`, `Sim.C11_above_highest_loses`, `Sim.C11_full_false`

### C12 (proved) — Formatted snapshots are sorted by mass with rows intact



Theorems: `Format.C12_sorted_rows`, `Format.C12_usable_data_are_formatted`

### C13 (proved) — The stored mass-cut table counts halos above each cut



Theorems: `Format.C13_mass_cut_table`, `Format.C13_table_for_reads`

### C14 (proved) — Incremental formatting keeps exactly the right snapshots



Theorems: `Format.C14_one_run`, `Format.C14_history`, `Format.C14_metadata_listed`, `Format.C14_metadata_rows`

### C15 (partial) — Interrupted formatting loses no raw data and is not mistaken for complete

Raw data are deleted only after their snapshot is complete, and without remake nothing is lost at any crash point. False: metadata list snapshots before (and without) their data, remake destroys snapshots whose raw data are gone, and a half-written snapshot is taken for complete by later runs.

Theorems: `Format.C15_declined`, `Format.C15_raw_deleted_last`, `Format.C15_nothing_lost_partial`, `Format.C15_remake_destroys`, `Format.C15_listed_without_data`, `Format.C15_incomplete_kept`, `Format.C15_incomplete_reached`, `Format.C15_full_false`

### C16 (proved) — Snapshot intervals tile cosmic time



Theorems: `Sim.C16_tiling`, `Sim.C16_lookup`, `Sim.C16_misordered_rejected`

### C17 (partial) — Grid geometry is consistent and covers the requested region

Proved for extents of at least two cells after rounding; a single cell raises IndexError and rounding to one decimal can shrink the extent (C17_full_false).

Theorems: `Map.C17_grid_geometry_partial`, `Map.C17_edges_uniform`, `Map.C17_scalar`, `Map.C17_single_cell_fails`, `Map.C17_extent_shrinks`, `Map.C17_full_false`

### C18 (partial) — Gridding a catalogue conserves the total

Proved for float positions and one column, or as many columns as properties in order; integer positions raise TypeError and column k goes to property k instead of properties[k].

Theorems: `Map.C18_cells_partial`, `Map.C18_inside`, `Map.C18_one_cell`, `Map.C18_total`, `Map.C18_new_props`, `Map.C18_integer_positions_fail`, `Map.C18_columns_swapped`, `Map.C18_columns_out_of_range`, `Map.C18_full_false`

### C19 (proved) — Gridding is independent of object order and of batching



Theorems: `Map.C19_order`, `Map.C19_batches`, `Map.C19_pieces`

### C20 (partial) — Sampling a grid reads the cell that gridding would fill

Proved for float positions; integer positions raise TypeError.

Theorems: `Map.C20_sample_partial`, `Map.C20_sample_after_add`, `Map.C20_integer_positions_fail`, `Map.C20_full_false`

### C21 (partial) — Padding is undone by removing the padding

Proved where pad[ax[i]] is the amount for axis i (e.g. all axes in order); a single axis other than the first always raises (C21_single_axis_fails).

Theorems: `Map.C21_pad_unpad_partial`, `Map.C21_aligned_range`, `Map.C21_aligned_perm`, `Map.C21_single_axis_fails`, `Map.C21_refused`, `Map.C21_full_false`

### C22 (partial) — Cropping keeps exactly the cells inside the limits

Proved where at least two cells remain and coordinates are floats; limits between two centres or around one raise after changing the grid.

Theorems: `Map.C22_crop_partial`, `Map.C22_refusal`, `Map.C22_gap_fails`, `Map.C22_one_cell_fails`, `Map.C22_full_false`

### C23 (proved) — Transforming to Fourier space and back is the identity



Theorems: `Map.C23_round_trip`, `Map.C23_axis_order`, `Map.C23_one_axis_at_a_time`

### C24 (partial) — Computing a power spectrum leaves the input map as it was

Maps are restored whenever a spectrum is returned; values are non-negative and agree with the cross spectrum of an equal copy. False for calls that fail late (units not one per property, cross map of another size): the map stays transformed.

Theorems: `Map.C24_restores_partial`, `Map.C24_restores_cross`, `Map.C24_refused`, `Map.C24_succeeds`, `Map.C24_nonneg`, `Map.C24_value`, `Map.C24_cross_with_itself`, `Map.C24_failure_leaves_transformed`, `Map.C24_units_fail`, `Map.C24_shapes_fail`, `Map.C24_full_false`

### C25 (partial) — Collapsing an axis preserves the total

One axis: exactly that axis removed, sums, weighted means and their bounds, totals preserved, in place or as a new grid. Two or more axes at once never work, for any map, weights or mode, nor do weights for every property.

Theorems: `Map.C25_one_axis_partial`, `Map.C25_total`, `Map.C25_mean_bounds`, `Map.C25_new_copy`, `Map.C25_several_axes_wrong`, `Map.C25_property_weights_wrong`, `Map.C25_full_false`

### C26 (partial) — Spherical averages use every cell of every shell

Every shell but the last holds the mean of exactly its cells (integer weights). False for every map: the last shell is always empty and its average not a number, so the farthest cells are never used with automatic shells; fractional weights are truncated to integers one by one.

Theorems: `Map.C26_value_partial`, `Map.C26_mean_bounds`, `Map.C26_succeeds`, `Map.C26_given_increasing`, `Map.C26_auto_increasing`, `Map.C26_last_shell_lost`, `Map.C26_one_shell_empty`, `Map.C26_auto_farthest_lost`, `Map.C26_small_weights_lost`, `Map.C26_full_false`

### C27 (proved) — Chunked spectral gridding equals one-pass gridding

For grids of at least two dimensions and functions acting object by object.

Theorems: `Map.C27_chunks`, `Map.C27_cells`, `Map.C27_empty_new_prop_fails`, `Map.C27_empty`

### C28 (partial) — Copies and sums of grid properties work for any number of properties

Copies keep axes, space and selected values if the number of units fits; for every grid with two or more units other selections, sums into a new grid, and copies after adding a property raise ValueError.

Theorems: `Map.C28_copy_partial`, `Map.C28_copy_all`, `Map.C28_sum_partial`, `Map.C28_sum_in_place`, `Map.C28_selection_fails`, `Map.C28_sum_fails`, `Map.C28_copy_after_add_fails`, `Map.C28_sum_forgets_space`, `Map.C28_units_not_reordered`, `Map.C28_full_false`

### C29 (proved) — Every lightcone object is a periodic image of its source halo

For every accepted line of sight, position angle, mirroring, start and number of copies of the box.

Theorems: `LC.C29_image`, `LC.C29_rotation`, `LC.C29_lightcone`

### C30 (partial) — Lightcone objects lie inside the requested geometry

Distances, redshifts and angles are right; objects behind the observer are included whenever the lightcone begins nearer than the buffer (C30_behind_observer).

Theorems: `LC.C30_geometry_partial`, `LC.C30_behind_observer`, `LC.C30_full_false`

### C31 (proved) — Lightcone slices cover the line of sight exactly once



Theorems: `LC.C31_partition`, `LC.C31_slice_length`, `LC.C31_once`

### C32 (proved) — Lightcone rows are ordered by distance and the redshift index table is correct



Theorems: `LC.C32_sorted`, `LC.C32_blocks`, `LC.C32_table`

### C33 (partial) — Properties added to a lightcone belong to the object's source halo

Scalar properties proved for all histories of calls (stored in single precision, a parameter). Vectors are rotated but never mirrored: wrong for every mirrored axis and nonzero component. No property can be added to a set in which one lightcone is empty (C33_empty_fails, chunks of length zero), or if a new property is named twice (C33_repeated_fails).

Theorems: `LC.C33_scalar`, `LC.C33_kept`, `LC.C33_session`, `LC.C33_vector_partial`, `LC.C33_vector_mirrored`, `LC.C33_empty_fails`, `LC.C33_repeated_fails`, `LC.C33_full_false`

### C34 (partial) — Unfinished lightcones are never reported as complete

Flags are right after every interruption, and building again is right. Adding again after an interruption writes nothing and marks the lightcones as complete (C34_lost). No interruption is needed for this if a lightcone of the set is empty: the call raises, repeated it does not, and the lightcones before the empty one keep zeros (C34_empty_lost).

Theorems: `LC.C34_build`, `LC.C34_build_again`, `LC.C34_add`, `LC.C34_add_again`, `LC.C34_lost`, `LC.C34_empty_lost`, `LC.C34_full_false`

### C35 (proved) — Existing lightcones are not destroyed without consent



Theorems: `LC.C35_consent`, `LC.C35_init_keeps`, `LC.C35_no_loss`

### C36 (partial) — Spherical lightcones contain each halo at most once per snapshot, in the right region

Each halo at most once per snapshot, at its nearest image (eighths: in the box at the corner), inside shell and region, in order of distance: proved. Refusal fails: the check compares Mpc/h with Mpc, so for h<1 spheres larger than the box are accepted (C36_accepts gives the exact condition) and images outside the cube around the observer are missing (C36_iff, C36_misses, C36_full_false). Complete if the sphere fits in the units of the positions.

Theorems: `LC.C36_once`, `LC.C36_image`, `LC.C36_nearest`, `LC.C36_region`, `LC.C36_iff`, `LC.C36_complete_partial`, `LC.C36_accepts`, `LC.C36_misses`, `LC.C36_sorted`, `LC.C36_full_false`

### C37 (partial) — Lightcone volume is additive and respects the lightcone's bounds

Volumes add up over every split of the range, and redshifts outside are refused. Redshifts in the wrong order give negative volumes. Containment is checked correctly only for the shape of the lightcone; for every circular lightcone below one radian some rectangles, and for every rectangle with aspect ratio below one the circle of full width, are accepted although they stick out. Light spheres raise KeyError by default and accept any rectangle.

Theorems: `LCH.C37_value`, `LCH.C37_split`, `LCH.C37_nonneg_partial`, `LCH.C37_reversed`, `LCH.C37_refused_redshift`, `LCH.C37_contained_partial`, `LCH.C37_box_in_circle_partial`, `LCH.C37_box_sticks_out`, `LCH.C37_circle_sticks_out`, `LCH.C37_sphere`, `LCH.C37_full_false`

### C38 (partial) — Statistics in redshift bins count each object once and leave the selection unchanged

Each bin uses exactly the objects with redshift between its edges, edges included: objects at inner edges count twice (C38_edge_twice), the selection is ignored (C38_selection_ignored), the number of active objects is wrong afterwards (C38_count), and a failing statistic leaves the objects of the bin selected (C38_failure_keeps_bin).

Theorems: `LCH.C38_values_partial`, `LCH.C38_once_partial`, `LCH.C38_edge_twice`, `LCH.C38_selection_ignored`, `LCH.C38_restored_partial`, `LCH.C38_count`, `LCH.C38_failure_keeps_bin`, `LCH.C38_full_false`

### C39 (partial) — Observations never use maps made with outdated detectors

Proved for every history of calls of the instrument; a grid held by reference that other code changes is not noticed (C39_edit_unnoticed).

Theorems: `Inst.C39_samples_partial`, `Inst.C39_refused`, `Inst.C39_edit_unnoticed`, `Inst.C39_full_false`

### C40 (proved) — Grouping detectors with equal beams or pointings does not change the result



Theorems: `Inst.C40_beam_groups`, `Inst.C40_pointing_groups`, `Inst.C40_map`, `Inst.C40_samples`

### C41 (partial) — Adding a detector or field is all-or-nothing and names stay unique

Names are unique in every history and failures leave no trace unless the detector is to be called 'instrument', which overwrites defaults; automatic names collide exactly with numbers given as names.

Theorems: `Inst.C41_unique`, `Inst.C41_failed_partial`, `Inst.C41_instrument_failed`, `Inst.C41_instrument_added`, `Inst.C41_automatic_partial`, `Inst.C41_automatic_name_partial`, `Inst.C41_number_blocks`, `Inst.C41_other_failures`, `Inst.C41_full_false`

### C42 (partial) — The requested field property is the one observed

Holds for fields with one property; the index is compared with the number of dimensions, and the first property is always the one mapped (C42_first_property).

Theorems: `Inst.C42_first_property`, `Inst.C42_one_property_partial`, `Inst.C42_negative_refused`, `Inst.C42_fourth_refused`, `Inst.C42_missing_accepted`, `Inst.C42_copy_refused`, `Inst.C42_units_refused`, `Inst.C42_no_beam_fails`, `Inst.C42_full_false`

### C43 (partial) — Abundance matching preserves rank and total abundance

Order and quantiles proved for halos passed one at a time.  In arrays every halo gets the same or 0; with the default missing fractions the heaviest and the lightest halo of an array always get 0.

Theorems: `AM.C43_accepted`, `AM.C43_monotone_partial`, `AM.C43_quantile_partial`, `AM.C43_fraction`, `AM.C43_array_partial`, `AM.C43_interior_partial`, `AM.C43_back_array`, `AM.C43_distributions_partial`, `AM.C43_extremes_zero`, `AM.C43_array_decreases`, `AM.C43_full_false`

### C44 (partial) — Bundled galaxy property models evaluate like their functions

Per-property powers of h are not honoured (C44_full_false).

Theorems: `Handler.C44_evaluate_all`, `Handler.C44_common_power_partial`, `Handler.C44_full_false`, `Handler.C44_per_property_powers_fail`, `Handler.C44_evaluate_drops_keywords`

### C45 (proved) — Duty cycles and luminosity cuts behave as documented

Powers are positive for positive bases and the error function lies in [-1,1] (hypothesis Usual, shown for the real numbers); ages are positive in the range of the redshifts. The rates of galaxies without stellar mass (NaN) are NaN. sffrac is a fraction whenever the quenched fraction of the lightest galaxies is, shown for the default parameters at every redshift.

Theorems: `Gal.C45_duty_fraction`, `Gal.C45_yang_fraction`, `Gal.C45_starburst_fraction`, `Gal.C45_starforming_fraction`, `Gal.C45_starforming_default`, `Gal.C45_keating_cut`, `Gal.C45_pullen_duty`, `Gal.C45_lidz_duty`, `Gal.C45_breysse_duty`, `Gal.C45_yang_duty`, `Gal.C45_rates`, `Gal.C45_pullen_average`, `Gal.C45_average`, `Gal.C45_yang_redshift`, `Gal.C45_main_sequence`, `Gal.C45_low_redshift`, `Gal.C45_flags`

### C46 (partial) — A supplied random generator determines the result

Proved for all functions except yang22 with duty cycle, which uses the global generator of numpy for it, and sfr and stellarmass of sfr_behroozi13 with scatter, which never use the generator passed; for these it is false.

Theorems: `Gal.C46_own_generator_partial`, `Gal.C46_rates`, `Gal.C46_others_untouched`, `Gal.C46_behroozi_ignores`, `Gal.C46_behroozi_differs`, `Gal.C46_yang_duty_ignores`, `Gal.C46_used_up`, `Gal.C46_full_false`

### C47 (partial) — Multi-file catalogues load as the concatenation of their chunks

Objects of all files in order, for files with complete fields and objects in the first file. If the first file has no objects the call fails (C47_first_empty), files with short arrays are filled with zeros, and a single field is returned in a form the caller cannot use (C47_single_field).

Theorems: `Load.C47_in_order`, `Load.C47_loaded_partial`, `Load.C47_loader_partial`, `Load.C47_none`, `Load.C47_object`, `Load.C47_first_empty`, `Load.C47_single_field`, `Load.C47_full_false`

### C48 (partial) — Each advertised raw field maps to its own property with one unit conversion

Proved for the tables of all simulations and every history of completed calls, except two properties of Illustris and TNG: the raw field of sfr_hr is listed twice so that sfr_hr is never stored (and sfr_2hr holds the value within one half mass radius); of the two conversions listed for bhmdot only the last is applied. Radii of UniverseMachine are labelled kpc/h but stored in Mpc/h (C48_radius_label).

Theorems: `Format.C48_documented_partial`, `Format.C48_labels_partial`, `Format.C48_distinct_partial`, `Format.C48_powers`, `Format.C48_masses`, `Format.C48_sfr_hr_missing`, `Format.C48_bhmdot`, `Format.C48_radius_label`, `Format.C48_full_false`

### C49 (partial) — Metadata collection orders snapshots and pairs them with their own files

Both download_meta methods are right for servers that list snapshots in order and wrong for others.

Theorems: `Sim.C49_illustris_partial`, `Sim.C49_illustris_full_false`, `Sim.C49_universemachine_numbers`, `Sim.C49_universemachine_partial`, `Sim.C49_universemachine_full_false`

### C50 (partial) — A file changed through a handler can be opened again

False: delete then write of a loaded property leaves an unreadable file (C50_full_false).

Theorems: `Handler.C50_reopen_partial`, `Handler.C50_full_false`

### C51 (proved) — Properties written to disk are read back unchanged by a new handler



Theorems: `Handler.C51_written_persists`

### C52 (partial) — A lightcone contains every halo at or above its minimum mass

False whenever a mass cut lies between the minimum mass and the minimum mass divided by h (C52_loses).

Theorems: `LC.C52_partial`, `LC.C52_loses`, `LC.C52_full_false`

### C53 (proved) — A property made for a whole simulation exists in every snapshot

C53_prefix also describes failures: the snapshots before the failing one are completely written, the others untouched.

Theorems: `SimAll.C53_written`, `SimAll.C53_prefix`, `SimAll.C53_rowwise`

### C54 (partial) — A simulation can be opened with all snapshots initialised

init_snaps=True always raises TypeError (C54_never); calling initialize_all_snaps afterwards does what was asked for.

Theorems: `SimAll.C54_never`, `SimAll.C54_full_false`, `SimAll.C54_initialize_partial`, `SimAll.C54_twice`

### C55 (partial) — Snapshots of one simulation are formatted alike

Proved for the tables of all simulations (C55_simulations) and all tables whose fields do not begin with a column called none...; for others fields are lost in snapshots added later (C55_full_false).

Theorems: `Format.C55_alike_partial`, `Format.C55_simulations`, `Format.C55_full_false`

### C56 (partial) — A saved grid is loaded unchanged

Proved for names ending in .npz and one unit per property; false otherwise.

Theorems: `Map.C56_roundtrip_partial`, `Map.C56_other_name_fails`, `Map.C56_added_property_fails`, `Map.C56_full_false`

### C57 (partial) — Saving without overwrite never replaces a file

Proved for names ending in .npz; any other name bypasses the check (C57_other_name_replaces).

Theorems: `Map.C57_no_overwrite_partial`, `Map.C57_refused`, `Map.C57_other_name_replaces`, `Map.C57_full_false`

### C58 (partial) — A power spectrum is labelled with the axes it is in

Right in place or for all axes; a new grid is labelled as Fourier along every axis, wrong for every map and every axis not chosen.

Theorems: `Map.C58_partial`, `Map.C58_always_wrong`, `Map.C58_full_false`

### C59 (partial) — Fourier cell edges surround their centres

False for every grid: the inner Fourier edges are the cell centres (C59_fourier_edges_wrong). Proved: centres are the DFT frequencies, outer edges are right.

Theorems: `Map.C59_fourier_axes_partial`, `Map.C59_fourier_edges_wrong`, `Map.C59_full_false`

### C60 (partial) — The geometry of a grid stays consistent under any sequence of operations

Proved for histories of successful calls on float grids; a crop that raises leaves the grid inconsistent.

Theorems: `Map.C60_history_partial`, `Map.C60_failed_crop_breaks`, `Map.C60_full_false`

### C61 (partial) — Rescaling an axis uses the factor given for it

Proved where factor[ax[j]] is the factor for ax[j]; false otherwise.

Theorems: `Map.C61_scale_partial`, `Map.C61_single_axis_fails`, `Map.C61_reversed_axes_swapped`, `Map.C61_fixed_center_fails`, `Map.C61_full_false`

### C62 (partial) — Down-sampling combines neighbouring cells

False for every map: down_sample fails on every map with data and for every single factor; without data the result is not a well-formed grid.

Theorems: `Map.C62_with_data_fails`, `Map.C62_one_factor_fails`, `Map.C62_without_data_wrong`, `Map.C62_full_false`

### C63 (proved) — A Fourier cell holds the transform at its labelled frequency

Normalised forward transforms of one axis; several axes by C23_one_axis_at_a_time.

Theorems: `Map.C63_value`, `Map.C23_one_axis_at_a_time`

### C64 (partial) — A power spectrum is a well-formed grid

Wrong whenever a map with one property is crossed with a map with several.

Theorems: `Map.C64_partial`, `Map.C64_always_wrong`, `Map.C64_full_false`

### C65 (partial) — Spherical averages come with their coordinates

Right if all axes are in the same space; wrong for every other axis in the other space.

Theorems: `Map.C65_partial`, `Map.C65_mixed_wrong`, `Map.C65_full_false`

### C66 (partial) — A lightcone contains every periodic image inside its geometry

Exactly the images that fit into the box of their slice are included (C66_iff); the code's buffer is too small for some accepted lines of sight (C66_full_false).

Theorems: `LC.C66_iff`, `LC.C66_buffer_partial`, `LC.C66_full_false`

### C67 (partial) — Lines of sight respect the angular limits

The flags of the two tests are not reset for a new draw, so that a direction need not pass both.

Theorems: `LC.C67_room_partial`, `LC.C67_flags_kept`, `LC.C67_full_false`

### C68 (partial) — A valid request for a lightcone is fulfilled

Fails for every request that begins or ends where the range of a snapshot does.

Theorems: `LC.C68_partial`, `LC.C68_touching_fails`, `LC.C68_boundary_fails`, `LC.C68_full_false`

### C69 (partial) — Iterating over a set of lightcones covers the last build

Files with higher numbers of an earlier build stay and are listed with the new ones.

Theorems: `LC.C69_list_partial`, `LC.C69_rest_kept`, `LC.C69_stale`, `LC.C69_full_false`

### C70 (proved) — Sky coordinates of light spheres point at the objects

Over the reals with the functions of numpy; objects exactly at the observer (NaN in the code) excluded.

Theorems: `LC.C70_direction`

### C71 (partial) — Vector properties can be added to light spheres

The property is false: the files of light spheres have no transformation matrices, so every call that would add a vector raises KeyError after creating datasets of zeros. C71_zeros shows that nothing else changes.

Theorems: `LC.C71_never`, `LC.C71_zeros`

### C72 (partial) — Refused requests for lightcones change nothing

The folder of a new set is made before mode, redshifts and size are checked: the name is in use after a refusal. Existing sets and other names are never changed.

Theorems: `LC.C72_left`, `LC.C72_kept_partial`, `LC.C72_full_false`

### C73 (partial) — Keywords of statistics in redshift bins

Requested values and other keywords are passed in every bin; keywords zmin and zmax of the caller only in the first; the dictionary is changed in place, so that the volume of the last bin reaches the next call.

Theorems: `LCH.C73_keywords_partial`, `LCH.C73_dictionary_changed`, `LCH.C73_next_call_fails`, `LCH.C73_full_false`

### C74 (partial) — Sets of lightcones opened together are consistent

Numbers are compared, the shape is not; light spheres are never accepted.

Theorems: `LCH.C74_consistent_partial`, `LCH.C74_accepts_partial`, `LCH.C74_sphere_never`, `LCH.C74_shape_ignored`, `LCH.C74_full_false`

### C75 (partial) — Maps can be made with a documented kernel size

One number per axis works; a whole number always fails.

Theorems: `Inst.C75_pair_partial`, `Inst.C75_integer_fails`, `Inst.C75_full_false`

### C76 (partial) — Detectors have the responses that were asked for

Proved for every name but 'instrument', see C41_instrument_added.

Theorems: `Inst.C76_added_partial`, `Inst.C76_set`, `Inst.C76_set_iff`, `Inst.C76_default`, `Inst.C76_defaults`

### C77 (partial) — Properties that came with a simulation are protected

Only the first snapshot is checked; holds for properties of the first snapshot and for snapshots with the same own properties. With held snapshots a refused overwrite has replaced the property in memory (C77_memory_replaced).

Theorems: `SimAll.C77_make_partial`, `SimAll.C77_delete_partial`, `SimAll.C77_memory_replaced`, `SimAll.C77_full_false`

### C78 (partial) — A failed make_property on a simulation can be repeated

False: the snapshots before the failing one keep the property (C53_prefix) and the repeated call is refused for every function (C78_stuck).

Theorems: `SimAll.C78_stuck`, `SimAll.C78_full_false`

### C79 (partial) — Snapshots use the units chosen for the simulation

Holds in every history once the snapshots are initialised; before, snapshots never use h units.

Theorems: `SimAll.C79_initialised_partial`, `SimAll.C79_not_initialised`, `SimAll.C79_full_false`

### C80 (partial) — Statistics of listed snapshots are those of these snapshots

The list is used as positions, not snapshot numbers; correct where both agree, and for all snapshots.

Theorems: `SimAll.C80_all_snapshots`, `SimAll.C80_listed_partial`, `SimAll.C80_other_snapshot`, `SimAll.C80_full_false`

### C81 (proved) — Deleting from a simulation removes exactly the named properties



Theorems: `SimAll.C81_handler`, `SimAll.C81_deleted`

### C82 (proved) — Restricting a simulation selects in each snapshot by its own values



Theorems: `SimAll.C82_restricted`, `SimAll.C82_refused`

### C83 (partial) — The number of volumes in a simulation

The inverse of the number is returned, for every volume.

Theorems: `SimAll.C83_inverse`, `SimAll.C83_units_partial`, `SimAll.C83_full_false`

### C84 (partial) — Halos read from binary UniverseMachine catalogues

Halos and values proved; positions are not wrapped into the box, because the result of the modulo operation is discarded (C84_inside_iff).

Theorems: `Load.C84_values`, `Load.C84_inside_iff`, `Load.C84_full_false`

### C85 (proved) — Fields of Uchuu from different files belong together



Theorems: `Load.C85_values`, `Load.C85_accepted`, `Format.C85_table`

### C86 (proved) — Matched properties can be converted there and back

For single numbers; quantile and cumulative fraction of the distribution are assumed inverse to each other.

Theorems: `AM.C86_catalogue`, `AM.C86_distributions`

### C87 (partial) — Values without a counterpart follow the extrapolation option

Holds for a catalogue if a part is missing on that side; with the default missing fractions the options have no effect, and am_dfdf uses the option of the wrong property. If the first distribution has no counts between its limits, am_dfdf gives NaN for a number and zero for the same number in an array (C87_empty_range).

Theorems: `AM.C87_catalogue_partial`, `AM.C87_back_partial`, `AM.C87_empty_range`, `AM.C87_options_ignored`, `AM.C87_wrong_option`, `AM.C87_distributions_false`, `AM.C87_full_false`

### C88 (partial) — Without randomness every galaxy gets the value it gets alone

Proved for all models that do not use f_duty, and for f_duty with up to 100 galaxies or galaxies all at one redshift. False for more galaxies: ages are interpolated between 50 redshifts that depend on the other galaxies.

Theorems: `Gal.C88_duty_partial`, `Gal.C88_alone`, `Gal.C88_duty_interpolated`, `Gal.C88_full_false`

### C89 (partial) — Every documented line and galaxy set can be used

The documented options that work are proved to work, and the others proved never to work: set comp/agn of delooze14, lines [SiIII]33um and [SiIII]19um of uzgil14 and spinoglio12, every line of kamenetzky16, CI1-0 and CI2-1 of yang22, CO of yang22 for a single redshift, CII of yang22 for a single halo with duty cycle unless scatter has the model's own width.

Theorems: `Gal.C89_delooze_partial`, `Gal.C89_comp_agn`, `Gal.C89_fir_partial`, `Gal.C89_silicon`, `Gal.C89_schaerer`, `Gal.C89_kamenetzky`, `Gal.C89_yang_partial`, `Gal.C89_yang_ci`, `Gal.C89_yang_co_number`, `Gal.C89_yang_cii_number`, `Gal.C89_full_false`

### C90 (partial) — A galaxy property model gives one value per galaxy or raises

Proved for all functions except sfr and stellarmass of sfr_behroozi13 before the set-up, which return an exception object.

Theorems: `Gal.C90_one_each_partial`, `Gal.C90_redshifts_refused`, `Gal.C90_one_redshift`, `Gal.C90_exception_returned`, `Gal.C90_full_false`

### C91 (partial) — Tabulated luminosity functions describe one distribution

Numbers and cumulative fractions of every positive function agree and the cumulative distribution never decreases; the quantiles increase and bracket the value. False: the quantile of the cumulative fraction of a value of the table is the value before it, for every positive function (C91_quantile_one_less). Logarithms are real functions with the laws of logarithms; rounding is left out.

Theorems: `LF.C91_count`, `LF.C91_cumulative`, `LF.C91_node`, `LF.C91_quantile_one_less`, `LF.C91_quantile_partial`, `LF.C91_quantiles_increase`, `LF.C91_quantile_ends`, `LF.C91_parameters`, `LF.C91_full_false`

### C92 (partial) — Schechter functions count what they integrate

The recursion equals the integral for every real slope, so counts, cumulative fractions of single values and quantiles at the values of the table are right. False: a number below the lower limit has count one (C92_count_below), and every array of two or more values inside the support raises an exception (C92_arrays_fail). scipy's special functions are assumed to equal their integrals.

Theorems: `LF.C92_gamma`, `LF.C92_count_partial`, `LF.C92_count_below`, `LF.C92_lum`, `LF.C92_single`, `LF.C92_arrays_partial`, `LF.C92_arrays_fail`, `LF.C92_cumulative`, `LF.C92_quantile_table`, `LF.C92_quantile_partial`, `LF.C92_quantile_ends`, `LF.C92_parameters`, `LF.C92_full_false`

### C93 (partial) — Densities of luminosity functions are normalised

Tabulated densities add up to one per unit of the logarithm (C93_table). The density of a Schechter function is not divided by its norm: its integral is the number of objects (C93_total), and its integral up to a value is that number times the cumulative fraction (C93_interval_partial).

Theorems: `LF.C93_single`, `LF.C93_total`, `LF.C93_interval_partial`, `LF.C93_table`, `LF.C93_full_false`

### C94 (partial) — Heavier halos are never given less by a relation matched to a luminosity function

False as stated: the table is zero from the heaviest halo of a snapshot on, so that the heaviest halo gets less than a lighter one in every simulation, and NaN for halos that have more heavier halos than there are galaxies. Proved: between the halos of a catalogue the table holds the value that as many galaxies exceed as there are heavier halos; tables are made and hold numbers for every usable simulation; the two luminosity functions meet the hypotheses.

Theorems: `Rel.C94_accepted`, `Rel.C94_abundance_partial`, `Rel.C94_numbers`, `Rel.C94_table_numbers`, `Rel.C94_made`, `Rel.C94_infrared_fair`, `Rel.C94_schechter_fair`, `Rel.C94_heaviest_zero`, `Rel.C94_unmatched_nan`, `Rel.C94_heaviest_loses`, `Rel.C94_outside`, `Rel.C94_between`, `Rel.C94_full_false`

### C95 (partial) — Options of the tabulated relations are honoured

False as stated: lf_alpha0, lf_sigma0, lf_lstar0 and lf_phistar0 never change the relation, and get_irlf_pars of an object ignores them; existing files are used whatever else is asked for, also if it is invalid; remake works without comp although documented as ignored; auto needs a snapshot 0. Proved: what auto stands for, refusal of invalid properties when the table is made, no relation without files and the agreement of the formulas where they meet.

Theorems: `Rel.C95_lf_ignored`, `Rel.C95_pars_ignored`, `Rel.C95_pars_partial`, `Rel.C95_cache`, `Rel.C95_remake_without_comp`, `Rel.C95_uninitialised`, `Rel.C95_auto_needs_zero`, `Rel.C95_auto_partial`, `Rel.C95_invalid_partial`, `Rel.C95_breaks`, `Rel.C95_sfr`, `Rel.C95_full_false`

### C96 (partial) — An interrupted construction of a relation leaves the old relation or the new one

False as stated: an interrupted remake leaves the new halo axis with the old table, which later objects load and whose values belong to other masses; if the number of snapshots has changed, later objects fail. Proved: an interrupted first construction leaves nothing that is taken for a table, and making the table again repairs every interruption.

Theorems: `Rel.C96_first_partial`, `Rel.C96_repeat`, `Rel.C96_mixed`, `Rel.C96_mixed_values`, `Rel.C96_refused`, `Rel.C96_full_false`

### C97 (partial) — A catalogue put into a grid is found in it completely

For a given region and for the default region every cell has the sum over the objects in it (C97_given_region, C97_default_region). False as stated: if the side length exceeds a whole number of pixels by at most a twentieth, the grid is smaller than the catalogue and the objects at the smallest and largest coordinate are lost, although the region was enlarged to contain them (C97_extreme_objects_lost); catalogues in which all objects have the same coordinate on an axis, and catalogues of integers, always fail. C97_default_partial says when every object is in the grid.

Theorems: `Map.C97_given_region`, `Map.C97_default_region`, `Map.C97_default_partial`, `Map.C97_extreme_objects_lost`, `Map.C97_flat_axis_fails`, `Map.C97_integer_positions_fail`, `Map.C97_empty_refused`, `Map.C97_lengths_refused`, `Map.C97_counts`, `Map.C97_columns`, `Map.C97_order`, `Map.C97_full_false`

### C98 (partial) — A grid made from axes has these axes

With exact numbers the axes, centres and function values are the given ones (C98_axes_partial, C98_function_partial). False with floating point numbers: the number of pixels is computed again without the rounding that Grid uses, so that seven equal cells from 0 to 17 give eight pixels for every rounding to nearest (C98_one_pixel_too_many), and a function is refused. Also false: a grid with one cell along an axis cannot be made, more than one property cannot be used with a function, and unequal steps of at most 5e-9 are silently replaced by equal ones. The rounding of the edges themselves is left out.

Theorems: `Map.C98_axes_partial`, `Map.C98_regular_partial`, `Map.C98_uneven_refused`, `Map.C98_one_cell_fails`, `Map.C98_one_edge_fails`, `Map.C98_tiny_steps`, `Map.C98_function_partial`, `Map.C98_function_one_property`, `Map.C98_function_shape`, `Map.C98_one_pixel_too_many`, `Map.C98_function_refused`, `Map.C98_full_false`

### C99 (partial) — A gridded snapshot contains the selected halos in the units asked for

Cells, totals, selections and units are right for all halos inside the limits, and with the defaults the grid has 100 cells on each axis from 0 to the box length. False as stated: halos on an upper face of the box are lost (C99_face_lost).

Theorems: `HGrid.C99_cells`, `HGrid.C99_default`, `HGrid.C99_selection`, `HGrid.C99_units`, `HGrid.C99_empty_refused`, `HGrid.C99_names_needed`, `HGrid.C99_limits_refused`, `HGrid.C99_face_lost`, `HGrid.C99_full_false`

### C100 (partial) — A gridded lightcone contains the objects of the cone

Cells and totals are right for all objects inside the limits, also on frequency axes (C100_cells, C100_inside_partial). False as stated: objects at the maximum redshift (at the minimum redshift with frequencies) are lost; for round lightcones with an aspect ratio below one, which does not change the shape but is stored, all objects further from the axis in declination are lost (C100_circle_lost); light spheres raise AttributeError without limits in both angles.

Theorems: `HGrid.C100_cells`, `HGrid.C100_default`, `HGrid.C100_inside_partial`, `HGrid.C100_edge_lost`, `HGrid.C100_circle_lost`, `HGrid.C100_sphere_fails`, `HGrid.C100_empty_refused`, `HGrid.C100_full_false`

### C101 (partial) — Point spread functions are Gaussians of the given width

Values, normalisation to area, symmetry and refusals are proved for all arguments. False as stated: with norm 'peak' the greatest value is less than one whenever an axis has an even number of cells (C101_peak_even), as with the default side and a pixel that divides three widths; a default side of at most 1.05 pixels fails.

Theorems: `Map.C101_width`, `Map.C101_cells`, `Map.C101_area`, `Map.C101_symmetric`, `Map.C101_peak_even`, `Map.C101_peak_partial`, `Map.C101_refused`, `Map.C101_coarse_fails`, `Map.C101_full_false`

### C102 (partial) — Frequency dependent point spread functions have the width of their channel

Values and the normalisation of each channel are proved for all arguments, and for ascending frequencies that the widths belong to the labels. False as stated: for descending frequencies the order of the widths is opposite to that of the labels; the default side is three instead of six widths, whatever the exponent; the edges of the spectral axis are its centres; one channel raises IndexError; uneven frequencies with the extent of even ones are accepted.

Theorems: `Map.C102_cells`, `Map.C102_slices`, `Map.C102_labelled_partial`, `Map.C102_descending_fails`, `Map.C102_side_fails`, `Map.C102_edges_fail`, `Map.C102_one_channel_fails`, `Map.C102_uneven_refused`, `Map.C102_uneven_accepted`, `Map.C102_full_false`

### C103 (partial) — Convolving a map spreads every cell by the source, centred on that cell, whatever the padding

Proved for every size: along the first axes each cell is the sum of what arrives, padding makes no difference and is removed, a point becomes the source around it, totals multiply, the copy has the same values, refused requests change nothing; a source with the channels of the grid on its last axes smears each channel with its own source (C103_channels). False in full: a source with an even number of cells (the usual size of PSF) puts the response half a cell too high along that axis (C103_even_fails, C103_centre_partial); a source of one axis cannot be used along another axis than the first unless the sizes happen to agree, and with padding never (C103_other_axis_fails, C103_padded_axis_fails); a list as padding raises only after the map was convolved and leaves the padding (C103_list_leaves); different numbers of properties raise but leave the padding (C103_properties_fail); a map of one property silently uses the middle property of a source with several (C103_property_chosen).

Theorems: `Map.C103_values_partial`, `Map.C103_padding`, `Map.C103_response`, `Map.C103_centre_partial`, `Map.C103_total`, `Map.C103_new_partial`, `Map.C103_channels`, `Map.C103_channels_new`, `Map.C103_refused`, `Map.C103_list_fails`, `Map.C103_list_leaves`, `Map.C103_padded_axis_fails`, `Map.C103_other_axis_fails`, `Map.C103_property_chosen`, `Map.C103_properties_fail`, `Map.C103_even_fails`, `Map.C103_full_false`

### C104 (partial) — Responses and noise of detectors are what their parameters say

Profiles, documented scaling, heights, noise levels, blocks and refusals are proved for all arguments. False in full: the default exponent -1 of gauss_psf_freq_dependent, documented as correct for a typical beam over frequencies, makes the beam wider at higher frequency (C104_default_grows; C104_typical_partial is for exponent 1); a box whose ends are at channel centres counts one channel too many, and boxes that touch both count the channel between them (C104_box_one_more, C104_touching_boxes); a time step that is not positive is accepted and gives no finite value (C104_noise_no_time).

Theorems: `Inst.C104_beam`, `Inst.C104_beam_width`, `Inst.C104_scaling`, `Inst.C104_reference`, `Inst.C104_typical_partial`, `Inst.C104_default_grows`, `Inst.C104_refused`, `Inst.C104_spectral_gauss`, `Inst.C104_boxcar`, `Inst.C104_box_width_partial`, `Inst.C104_box_one_more`, `Inst.C104_touching_boxes`, `Inst.C104_noise`, `Inst.C104_noise_time`, `Inst.C104_noise_blocks`, `Inst.C104_noise_refused`, `Inst.C104_noise_unseeded`, `Inst.C104_noise_no_time`, `Inst.C104_no_noise`, `Inst.C104_box_false`, `Inst.C104_full_false`

### C105 (partial) — The map that a detector makes of a field

Values, points, uniform fields, sums, padding, default kernels and refusals are proved for all fields, responses and kernels of at least two cells. False in full: a kernel with an even number of cells puts the image half a cell too high, for every response with equal sides (C105_even_fails; the _partial theorems are for odd numbers, which the default always gives). A whole number as kernel size, as documented, raises TypeError, and a kernel of one cell along an axis always fails (C105_refused). Assumed: divisors are not zero, the grid is of floats.

Theorems: `Map.C105_values`, `Map.C105_point`, `Map.C105_centred_partial`, `Map.C105_sides_partial`, `Map.C105_uniform`, `Map.C105_padding`, `Map.C105_linear`, `Map.C105_default`, `Map.C105_refused`, `Map.C105_even_fails`, `Map.C105_full_false`

### C106 (partial) — Downloading brings every missing file, and an interrupted download can be resumed

Completeness, repetition, replacement and the safety of existing files are proved for all lists of snapshots and disks. False in full: interrupted within a file, this file is taken for complete by every later call (C106_um_crash_fails; the _partial theorems are for interruptions between files); with UM-Uchuu all data files but the first are stored elsewhere if the path of the simulation contains 'data1' (C106_uchuu_elsewhere, C106_uchuu_missing_fails); with Illustris a snapshot is left out as soon as its first file exists, existing files are never replaced even with redownload, and without metadata nothing is checked.

Theorems: `Raw.C106_um`, `Raw.C106_um_redownload`, `Raw.C106_um_repeat`, `Raw.C106_um_kept`, `Raw.C106_um_crash_partial`, `Raw.C106_um_crash_fails`, `Raw.C106_um_redownload_crash_fails`, `Raw.C106_uchuu_place_partial`, `Raw.C106_uchuu_partial`, `Raw.C106_uchuu_repeat`, `Raw.C106_uchuu_kept`, `Raw.C106_uchuu_redownload`, `Raw.C106_uchuu_crash_partial`, `Raw.C106_uchuu_elsewhere`, `Raw.C106_uchuu_missing_fails`, `Raw.C106_ill_redownload_fails`, `Raw.C106_ill_skip_fails`, `Raw.C106_ill_complete_partial`, `Raw.C106_ill_unchecked`, `Raw.C106_ill_found`, `Raw.C106_ill_read`, `Raw.C106_ill_missing`, `Raw.C106_ill_never_read`, `Raw.C106_full_false`

### C107 (partial) — Deleting raw data deletes the raw data and nothing else

For absolute paths of letters, digits and / . _ - the deletions are exactly those stated. False in full: the path is passed to the shell without quotes, so that for every path with a space the folder named by the part before the space is deleted with everything in it, and the raw data are kept (C107_space_fails, C107_space_left); with UM-Uchuu the twelfth data file is never deleted while formatting (C107_uchuu_twelfth_fails). Other characters with a meaning to the shell are not modelled.

Theorems: `Raw.C107_asked`, `Raw.C107_removes_partial`, `Raw.C107_kept_partial`, `Raw.C107_space_fails`, `Raw.C107_space_left`, `Raw.C107_um_partial`, `Raw.C107_uchuu_partial`, `Raw.C107_uchuu_used_partial`, `Raw.C107_uchuu_twelfth_fails`, `Raw.C107_ill_partial`, `Raw.C107_full_false`

### C108 (partial) — A catalogue has the snapshots asked for, their metadata, and says what is missing

Snapshots, metadata and reports are proved for all requests. False in full: an interruption anywhere between the first and the last step of saving the metadata makes every later attempt to open a catalogue raise, and download_meta() does nothing because the first file exists (C108_crash_fails; only an object that is still in use can repair it, C108_repair); metadata saved for fewer snapshots are never completed by download_meta() (C108_stale_fails).

Theorems: `Raw.C108_snaps`, `Raw.C108_without`, `Raw.C108_downloaded`, `Raw.C108_no_snapshots`, `Raw.C108_stale_fails`, `Raw.C108_crash_partial`, `Raw.C108_crash_fails`, `Raw.C108_repair`, `Raw.C108_um_report`, `Raw.C108_uchuu_report_partial`, `Raw.C108_uchuu_report_fails`, `Raw.C108_full_false`

### C109 (partial) — Star formation rates and stellar masses from the tables of Behroozi et al.

The values are proved for all tables that can be used, all redshifts and all masses. False in full: the files are written one after the other and only the first of them is looked for, so that an interruption of the first import after the first file is opened and before the last one is complete makes every later `import simim` raise, and nothing is ever written again (C109_interrupted_fails).

Theorems: `Beh.C109_made`, `Beh.C109_nodes`, `Beh.C109_between`, `Beh.C109_outside`, `Beh.C109_range`, `Beh.C109_incomplete`, `Beh.C109_no_value`, `Beh.C109_first`, `Beh.C109_before_setup`, `Beh.C109_interrupted_fails`, `Beh.C109_interrupted_partial`, `Beh.C109_full_false`

### C110 (partial) — The ready-made galaxy properties give every halo the value of the published relation

Proved for every ready-made property but one, all states and selections. False in full: prop_co_sled can never be made, whatever the handler holds, because its function uses a variable (L_ir) that is assigned only later (C110_sled_fails); prop_pullen_co is exact only for at most 100 halos or equal redshifts, otherwise it uses interpolated ages (see C88); before setupsimim the two properties from tables return an exception as their value (C110_before_setup).

Theorems: `Ready.C110_values`, `Ready.C110_make`, `Ready.C110_missing`, `Ready.C110_sled_fails`, `Ready.C110_before_setup`, `Ready.C110_full_false`

### C111 (partial) — Plots and histograms show the selected objects

What is drawn is proved for every reachable state and selection, and that earlier calls have no influence although all calls share the default dictionary. False in full: the entries 'ls' and 'marker' are added to the dictionary of the caller (C111_argument_changed), and a 'label' (for comparisons also a 'color') in it, although documented to be passed on, raises a TypeError (C111_label_fails). Assumed of matplotlib: an artist is made from the arrays passed to it; values whose range is not finite cannot be binned.

Theorems: `Plot.C111_plot`, `Plot.C111_possible`, `Plot.C111_unknown`, `Plot.C111_sequence`, `Plot.C111_label_fails`, `Plot.C111_argument_changed`, `Plot.C111_hist`, `Plot.C111_hist_possible`, `Plot.C111_full_false`

### C112 (partial) — The lists of properties describe the handler and its file

Proved as an invariant of all sequences of calls without delete_property in which the names under which properties are made differ. False in full: after deleting, 'mass_cuts' is listed as a saved property (C112_delete_lists_mass_cuts), and a deleted property stays listed as loaded and generated (C112_delete_stays); the lists returned are the handler's own, so that a name appended by the user becomes a property whose value is None (C112_list_is_shared, C112_saved_is_shared).

Theorems: `Plot.C112_keys`, `Plot.C112_lists_partial`, `Plot.C112_delete_lists_mass_cuts`, `Plot.C112_delete_stays`, `Plot.C112_list_is_shared`, `Plot.C112_saved_is_shared`, `Plot.C112_full_false`

### C113 (partial) — The pictures and animations of a grid show its cells where they are

Proved for all regular grids: visualize is right when the axes are named in increasing order; animate shows in each frame the right sums if no axis before the slide axis is summed over. False in full: with the axes in decreasing order visualize raises, or, if they have equally many cells, shows a transposed image (C113_swapped); axes in Fourier space are labelled with positions (C113_fourier_labels); animate always draws the edges between cells half a cell too high, and its titles are the lower ends of the slides (C113_movie_edges_wrong); slides along the fourth or a later axis always raise (C113_late_axis_fails); still=True always raises at the end (C113_still_fails). Colours, logscale and the limits of the colour scale are not modelled.

Theorems: `Pic.C113_view_partial`, `Pic.C113_swapped`, `Pic.C113_refused`, `Pic.C113_fourier_labels`, `Pic.C113_movie_partial`, `Pic.C113_animate_refused`, `Pic.C113_drawn_edges_wrong`, `Pic.C113_movie_edges_wrong`, `Pic.C113_late_axis_fails`, `Pic.C113_still_fails`, `Pic.C113_full_false`

### C114 (partial) — The animation of a lightcone shows each halo in the frame of its distance

What each frame shows is proved for all reachable handlers. Each halo strictly inside a slide, in units of Mpc/h, is visible in exactly one frame. False in full: with in_h_units=False (the default) positions in Mpc are compared with slides in Mpc/h, so that halos appear in wrong frames and those beyond h times the far end never (C114_default_units_wrong); a halo exactly at the end of a slide is never visible (C114_end_of_slide_lost); titles give the redshift at which the distance in Mpc has the value in Mpc/h, too low for h < 1 (C114_titles_wrong); a single value that is NaN (or not positive on the logarithmic scale), or equal values for all, make everything invisible (C114_nothing_visible); light spheres raise a KeyError (C114_sphere_fails).

Theorems: `Cone.C114_movie`, `Cone.C114_once_partial`, `Cone.C114_end_of_slide_lost`, `Cone.C114_slide_width`, `Cone.C114_default_units_wrong`, `Cone.C114_titles_wrong`, `Cone.C114_nothing_visible`, `Cone.C114_sphere_fails`, `Cone.C114_refused`, `Cone.C114_full_false`

### C115 (partial) — Reference frequencies and plots of detectors are those of their responses

For every response with one maximum (strictly rising, then falling) between 10^-20 and 10^20 the search ends and finds its logarithm up to 1/1250 (C115_reference). False in full: the tolerance of 0.01 is not reached, since the search stops as soon as two rounds give the same point: an error of more than 10^7 near 10^11 (C115_reference_rough); a box gives its lower end (C115_box_lower_end); a response between two points of the first round gives NaN (C115_narrow_unseen, C115_narrow_box). plot_detector_response draws one panel for each detector with the documented ranges, but beams with the two positions exchanged (C115_panels_partial, C115_beam_exchanged; right for symmetric beams in square regions: C115_beam_partial). plot_spectral_response always raises (C115_spectra_fail).

Theorems: `InstPlot.C115_reference`, `InstPlot.C115_reference_rough`, `InstPlot.C115_box_lower_end`, `InstPlot.C115_narrow_unseen`, `InstPlot.C115_narrow_box`, `InstPlot.C115_upper_end`, `InstPlot.C115_panels_partial`, `InstPlot.C115_beam_partial`, `InstPlot.C115_beam_exchanged`, `InstPlot.C115_refused`, `InstPlot.C115_spectra_fail`, `InstPlot.C115_full_false`

### C116 (partial) — Standard deviations and logarithmic shells of spherical averages are those of the cells

Every shell but the last has the standard deviation of exactly its cells for maps of real numbers and integer weights (C116_std_partial, C116_real_partial: root of mean square minus squared mean, zero exactly if the cells are equal); a shell with one cell has no corrected one (C116_single). False in full: for complex data the squares themselves, not the squares of the absolute values, are averaged, so that the modes 1, i, -1, -i have the standard deviation 0 (C116_complex_wrong); the last shell is always lost (C116_last_shell_lost). Logarithmic shells leave out a cell at the centre (C116_log_centre_lost). Square roots, logarithms and powers are parameters; fractional weights as in C26.

Theorems: `Map.C116_std_partial`, `Map.C116_real_partial`, `Map.C116_linear`, `Map.C116_modes`, `Map.C116_last_shell_lost`, `Map.C116_single`, `Map.C116_log_edges`, `Map.C116_log_centre_lost`, `Map.C116_complex_wrong`, `Map.C116_full_false`

### C117 (partial) — What was formatted is read back halo by halo

Reading back is proved for every snapshot that was formatted, through any history of runs and handler calls. False in full: the list of snapshots. A catalogue opened for some snapshots still has the saved metadata of all of them, and a new file gets all of that: the simulation then lists snapshots that are not in the file, getting one raises, and no operation on all snapshots succeeds (C117_missing). C117_all_partial has the case in which the metadata are those of the snapshots asked for.

Theorems: `Format.C117_opens`, `Format.C117_read`, `Format.C117_select`, `Format.C117_all_partial`, `Format.C117_missing`, `Format.C117_empty_refused`, `Format.C117_full_false`

### C118 (partial) — Lightcones of a formatted simulation are made of the raw halos

C118_objects is the composition of formatting, building and adding properties, for any history of formatting runs. False in full: if the catalogue had metadata of more snapshots than it was asked for (as in C117), building raises for every redshift range that includes one of them, after the files were created (C118_missing); and as in C52 halos above the minimum mass are lost if a mass cut lies between the minimum mass and the minimum mass divided by h (C118_light_lost). C118_considered_partial has the other case. C118_sphere_partial has the same for light spheres, with completeness: where the sphere fits into the box and no cut lies in between, every image in the shell and region of every raw halo at or above the minimum mass is an object, once.

Theorems: `LC.C118_objects`, `LC.C118_sphere_partial`, `LC.C118_considered_partial`, `LC.C118_light_lost`, `LC.C118_missing`, `LC.C118_full_false`

### C119 (partial) — An opened lightcone shows its objects and the properties added to it

C119_opens holds for every state left by completed calls and one interrupted call; C119_raw is the composition with formatting (C118), from raw halos to what the handler shows. False in full: the handler does not look at the status flags, so after an interruption of add_properties it shows 0 for every object as the value of the new property, and repeating the call skips the property, marks the lightcone as complete and leaves the zeros (C119_zeros, for every call that would have completed).

Theorems: `LC.C119_opens`, `LC.C119_read_partial`, `LC.C119_raw`, `LC.C119_unfinished`, `LC.C119_absent`, `LC.C119_zeros`, `LC.C119_full_false`

### C120 (partial) — A map of a lightcone has the objects of the lightcone with the values of their halos

C120_opened shows that every lightcone built (C119) has what the other theorems ask for (Shows); C120_raw_partial is the whole path from raw halos to the sum over the map. False in full: a circular lightcone made with an aspect ratio below one has objects above and below its default map, and objects of a rectangular lightcone exactly on the upper limits are lost (C120_lost); complete for circular lightcones with aspect ratio at least one (the default) and when nothing lies on the upper limits (for frequencies: no object exactly at the minimum redshift).

Theorems: `LC.C120_cells`, `LC.C120_default`, `LC.C120_complete_partial`, `LC.C120_opened`, `LC.C120_raw_partial`, `LC.C120_lost`, `LC.C120_volume`, `LC.C120_full_false`

### C121 (partial) — A call for a set of lightcones is the same call for each of them

C121_each and C121_history hold for all sets of handlers and sequences of calls; C121_opens and C121_values are compositions with C119. False in full: a call that raises at one lightcone has already changed those before it (C121_raises; after an interruption of add_properties set_property_range restricts the first lightcones and raises at the first without the property), and keywords zmin and zmax that the user gives to eval_stat_evo reach only the first lightcone, because it removes them from the dictionary all lightcones share: the others are evaluated without them (C121_evo_lost, for all statistics and sets; C121_evo_partial otherwise). A number given twice is one lightcone but is counted twice in n_lcs; a single number that is not in a list is refused with a TypeError (C121_numbers).

Theorems: `LCI.C121_each`, `LCI.C121_returns`, `LCI.C121_raises`, `LCI.C121_history`, `LCI.C121_opens`, `LCI.C121_values`, `LCI.C121_numbers`, `LCI.C121_evo_partial`, `LCI.C121_evo_lost`, `LCI.C121_full_false`, `LCI.C121_evo_full_false`

### C122 (partial) — Halos in a binary catalogue are read as they were written

Records are modelled byte by byte (offsets, alignment, two's complement, IEEE bits). False in full: the record type has an integer for 'sfr', which the file has as a float (the table of fields, line 154, and the type of the text catalogues, line 234, have a float), so the bits of the star formation rate are taken for an integer; the result is right only for zero, and every rate of at least 2^-126 is read as at least 8388608, though the order of the rates is kept. A file that was cut off is read without an error: the halos after the cut are missing (C122_truncated). That the files have a float there is taken from these two places, since no file is in the repository.

Theorems: `Load.C122_values`, `Load.C122_truncated`, `Load.C122_sfr_wrong`, `Load.C122_sfr_large`, `Load.C122_sfr_order`, `Load.C122_full_false`

### C123 (partial) — Halos in a text catalogue are read as they were written

np.loadtxt is modelled character by character for the arguments used (lines, comments, words, integers; reading a floating point number from a word is a parameter). False in full: a catalogue with exactly one halo raises a TypeError, because the array then has no dimension and len() fails (C123_single); a file cut off at the end of a line loses the other halos without an error (C123_cut_line), and one cut off in the last number of a line is read with the shortened number (C123_cut_number); C123_cut shows that nothing else can come from a cut. Identification numbers beyond 32 bits make the whole file unreadable, whatever is asked for (C123_wide), although binary catalogues have 64 bits for them.

Theorems: `Load.C123_values_partial`, `Load.C123_single`, `Load.C123_wide`, `Load.C123_cut`, `Load.C123_cut_line`, `Load.C123_cut_number`, `Load.C123_full_false`

### C124 (partial) — Halos are matched to the published stellar mass functions at their redshift

Proved for all cosmologies and redshifts: the parameters at the published redshifts, between them and outside them, that they are always accepted by the Schechter function, and that the relation is then made for every simulation with the properties needed. False: heavier halos do not get less. For every choice of cosmologies there is a simulation in which the heaviest halo gets less stellar mass than a lighter one, because the relation gives 0 beyond the heaviest halo and interpolates towards it (as in C94). Decimal numbers are exact reals; distances and volumes are parameters that are positive at positive redshifts; scipy's special functions are a parameter with their defining equations.

Theorems: `Rel.C124_centre`, `Rel.C124_between`, `Rel.C124_outside`, `Rel.C124_valid`, `Rel.C124_made_partial`, `Rel.C124_loses`, `Rel.C124_full_false`

### C125 (partial) — What an instrument records of a sky

The composition of C39/C40 (bookkeeping), C105 (maps) and C20 (samples): the operations that are open in the model of the instrument are instantiated with those of the grids, and mapping and sampling are shown to succeed and to give the stated numbers. C125_default reduces the kernel used by default to one with 10 r + 1 cells. False in full: an array of integer positions is refused with a TypeError whenever some detector has an integer pointing offset, as all detectors have that were added without one (C125_integer_fails, for every instrument and sky). For kernels with even numbers of cells the beam is half a cell off (Reaches and away in the specification, see C105). The values of response and noise functions are parameters; nothing that is divided by vanishes.

Theorems: `Inst.C125_observed_partial`, `Inst.C125_default`, `Inst.C125_integer_fails`, `Inst.C125_full_false`

### C126 (partial) — A search for lines of sight comes to an end

C126_iff is exact: a line of sight exists if and only if the radius of the circle around the cross section is below 15 degrees and the diagonal of the (copied) box exceeds twice the buffer by 10 Mpc/h; C126_almost_surely is about independent uniform draws (Lebesgue measure). Round lightcones below 30 degrees that fit into a box of at least 40 Mpc/h are all right (C126_circle_partial). False in full: LCMaker accepts requests up to side = box, but a square lightcone with a side above 0.86 of the box at its far end (and no copies of the box) never gets a line of sight, and neither does any lightcone with a radius of 15 to 60 degrees: build_lightcones then runs for ever. Real numbers instead of floating point ones; radii of 60 degrees and more are not treated.

Theorems: `LC.C126_iff`, `LC.C126_almost_surely`, `LC.C126_circle_partial`, `LC.C126_square_fails`, `LC.C126_wide_fails`, `LC.C126_full_false`

### C127 (partial) — What an instrument records of a lightcone is the light of its objects

C127_sky: the map of one property of the opened lightcone is a sky with the sums of the values; C127_seen: the smeared and averaged sky in a cell is the sum over the objects; C127_observed_partial: the chain lcGrid, addField, mapFields, sampleFields succeeds and every detector records noise plus the objects' shares, for positions that are not integers (C125) and maps whose limits and pixel sizes are not all integers. False in full: maps of lightcones have no units, so that add_field only warns and takes them, whatever the units of the instrument (C127_added); an instrument in degrees reads the radians of the map as degrees (C127_full_false).

Theorems: `Inst.C127_sky`, `Inst.C127_seen`, `Inst.C127_added`, `Inst.C127_observed_partial`, `Inst.C127_full_false`

### C128 (partial) — Rescaled axes have the units they are given

C128_units_partial: with room in the arrays of units, and in lists the unit of axis i at position i, the axes have the units asked for and everything else is as in C61; C128_iff: for one unit just then. Room: always for grids made without units (C128_without), else for units no longer than one the grid was made with (C128_shorter). False in full: units are kept in numpy arrays of texts with a fixed number of letters, so a longer unit is cut off without a message (C128_cut; 'rad' to 'arcmin' gives 'arc', 'm' to 'mm' gives 'm'), None becomes the text 'None' or a part of it (C128_none_kept), and no history of calls ever gives a longer unit (C128_never_longer). A converted map is then refused by the instrument in the new unit (C128_refused). Lists of units are indexed by the axis, so axes in reverse order get each other's units (C128_swapped).

Theorems: `Map.C128_units_partial`, `Map.C128_iff`, `Map.C128_without`, `Map.C128_shorter`, `Map.C128_cut`, `Map.C128_none_kept`, `Map.C128_never_longer`, `Map.C128_swapped`, `Map.C128_same`, `Map.C128_full_false`, `Inst.C128_refused`

### C129 (partial) — A snapshot that opens after an interruption is complete and true

C129_reads_partial (with C129_groups): after any history of calls, each cut off at any write, what a snapshot that opens shows is true: every property is one the call was to write, all in one order of the raw halos, right values and powers of h, whatever is done with the handler meanwhile. C129_opens_iff: a snapshot opens just if the masses are there and every dataset has both attributes. Completeness is false (C129_full_false): for every catalogue and every usable raw data there is a write after which the simulation and its snapshot open without complaint but have the basic properties only (C129_basic_only, C129_looks_complete); later calls without remake, overwriting or not, then write no further fields for any snapshot and end normally (C129_spreads, C129_never_repaired), because the fields to write are guessed from the first snapshot in the file; remake=True repairs it (C129_remake). Writes to the file are taken to reach the disk in program order, one dataset or attribute at a time.

Theorems: `Format.C129_groups`, `Format.C129_reads_partial`, `Format.C129_opens_iff`, `Format.C129_basic_only`, `Format.C129_looks_complete`, `Format.C129_spreads`, `Format.C129_never_repaired`, `Format.C129_remake`, `Format.C129_full_false`

### C130 (partial) — Sessions running side by side share one registry of paths

Turns last until the next access to a file; a line is appended as a whole (cut off writes are in C131). C130_later_partial: no registration is lost, for all schedules. C130_view_partial: a running session shows, for every name, what was current under its root at some moment since it last began to read. False in full: sessions read the files only once, so a running session does not see what others register (C130_stale, C130_full_false), two sessions replace each other's path without asking (C130_unasked, for every reachable state), and what a session registers after another has changed the data directory goes to the old one, where no later session looks (C130_old_root). A root is written only after confirmation and only if it exists (C130_root_confirmed).

Theorems: `Paths.C130_later_partial`, `Paths.C130_view_partial`, `Paths.C130_stale`, `Paths.C130_unasked`, `Paths.C130_old_root`, `Paths.C130_root_confirmed`, `Paths.C130_full_false`

### C131 (partial) — An interrupted registration leaves a registry that works

C131_iff_partial says exactly which interruptions of a registration are harmless: before the first character, after the whole path, or if what was written of the path happens to be the old path. False in full: cut off in the name, no session can be begun any more (C131_name_cut: an IndexError in the constructor that every handler and catalogue uses), and no calls ever mend it unless a session is still running (C131_forever); cut off in the path, the name resolves to part of it (C131_path_cut), and the next registration is glued to the line and lost as well (C131_glued, C131_glued_name); interrupted while writing the root file, sessions cannot be begun or use a truncated data directory (C131_root).

Theorems: `Paths.C131_iff_partial`, `Paths.C131_complete`, `Paths.C131_name_cut`, `Paths.C131_path_cut`, `Paths.C131_glued`, `Paths.C131_glued_name`, `Paths.C131_root`, `Paths.C131_forever`, `Paths.C131_full_false`

### C132 (proved) — The fields of an instrument fit it

C132_added_iff says exactly when add_field takes a grid: it includes that several properties are only possible if the chosen one or the instrument has no unit, and that the index is compared with the number of axes (both in C42). C132_sharp holds with the checks off as well, C132_suits needs them on. C132_kernel: the size chosen for a beam is odd and at least 11 pixels. A field without units fits any instrument (see C127 for what that leads to); a grid added by reference can be changed from outside, which the documentation says.

Theorems: `Inst.C132_added_iff`, `Inst.C132_refused`, `Inst.C132_sharp`, `Inst.C132_suits`, `Inst.C132_kernel`

### C133 (partial) — Several handlers on one catalogue

Proved by induction over the interleaving: rows stay aligned in every handler (C133_rows); untouched properties are returned by every handler, whenever opened, as they are in the file (C133_untouched); and a handler whose properties the others do not make, write or delete behaves as if it were alone, in what its calls return, in its lists and selection, and in the file (C133_apart_partial). False in full (C133_full_false): a handler reads the current values from the file but converts them with the power of h it recorded when it was opened (C133_reads says exactly this), so values rewritten by another handler with a different power of h are returned in wrong units. Further, whatever the values: handlers do not see what others add (C133_unseen: ValueError), still list what others deleted (C133_deleted: KeyError), go on returning what they had loaded (C133_stale), and overwrite what others have written although not asked to overwrite (C133_overwrites). Calls are atomic in the model (made in turn in one process); simultaneous access of two processes to one HDF5 file is not modelled.

Theorems: `Handler.C133_rows`, `Handler.C133_reads`, `Handler.C133_untouched`, `Handler.C133_blind`, `Handler.C133_stale`, `Handler.C133_unseen`, `Handler.C133_deleted`, `Handler.C133_overwrites`, `Handler.C133_apart_partial`, `Handler.C133_full_false`

### C134 (partial) — Catalogues, simulations and lightcones find each other by name

Proved by induction over the programs: as long as no directory has a blank or line break in its name, SimHandler and LCHandler use exactly the directory that the last catalogue or lightcone maker reported (and raise ValueError if there is none); accepted names themselves have no blanks. False in full: for every directory with a blank, the catalogue object itself uses it but simulations are then looked for in the directory named by the part before the blank (C134_cut). setupsimim takes an empty answer as the home directory (C134_setup_home) but refuses directories given with a leading ~, as it asks whether they exist before replacing the ~ (C134_tilde). A catalogue whose path the user does not want remembered is used but not found later, as the notebook of the specification says. The questions of LCMaker about existing lightcones are in C118; making directories (mkdir) is not modelled.

Theorems: `Paths.C134_simulation_partial`, `Paths.C134_cone_partial`, `Paths.C134_refused`, `Paths.C134_cut`, `Paths.C134_full_false`, `Paths.C134_setup_home`, `Paths.C134_tilde`

### C135 (partial) — The light computed for the objects of a lightcone is what an instrument records

C135_kept: induction over the calls after make_property. C135_observed_partial follows the values from the columns of a reachable handler through make_property, any calls before and after, the map and an instrument with any history to the recorded numbers; C135_opened shows that every lightcone built and opened is such a handler. Missing: integer positions (C125), and objects that were not selected when the property was computed. False in full (C135_full_false): for every model and every lightcone, one such object makes its cell of the map NaN (C135_left_out). Unloading a property that was not written loses it: see C06. Models with a state of their own (random numbers) are covered as long as they return a number per object; write_to_disk=True at make_property is in C08 and C51, here the property may be written by a later call.

Theorems: `Handler.C135_kept`, `Inst.C135_observed_partial`, `Inst.C135_left_out`, `Inst.C135_opened`, `Inst.C135_full_false`

### C136 (proved) — A power spectrum contains the squared amplitudes of the waves in a map

For maps of any dimension with numbers as values (exact complex arithmetic). The values are given for maps in real space; C136_space shows that spectra are the same after any axes have been transformed, also for the map crossed with. Calls that do not return are covered by C24 and C64; the units and the flags of the spaces of the returned grid by C58 and C64.

Theorems: `Map.C136_value`, `Map.C136_cross`, `Map.C136_parseval`, `Map.C136_moved`, `Map.C136_opposite`, `Map.C136_sum`, `Map.C136_objects`, `Map.C136_single`, `Map.C136_mean`, `Map.C136_space`

### C137 (partial) — The spherical average of a power spectrum is the mean power of the waves in each shell

Proved for all shells but the last (composition of C136 with C26, for exact square roots and without weights). False in full: the last shell is always reported as empty (C137_last_lost, see C26). With automatic shells the power of the largest frequencies is therefore always missing; C137_accounted says how the averages and the missing power add up.

Theorems: `Map.C137_average_partial`, `Map.C137_succeeds`, `Map.C137_accounted`, `Map.C137_flat`, `Map.C137_last_lost`, `Map.C137_full_false`

### C138 (partial) — Lightcones made after interrupted formatting consist of the raw halos

Objects and properties added by a first call are proved for everything interrupted formatting can leave (C138_objects; C138_opened through the handler). False in full: a snapshot left without some of its properties makes the call that adds one raise after the datasets were made; calling again then ends normally and the lightcones show zeros, marked as complete (C138_zeros, for every such file). C138_considered_partial: as in C118, a cut between the minimum mass and the minimum mass divided by h is excluded.

Theorems: `LC.C138_objects`, `LC.C138_opened`, `LC.C138_considered_partial`, `LC.C138_zeros`, `LC.C138_full_false`

### C139 (proved) — Random scatter and random duty cycles keep the average they are documented to keep

Over the reals with the laws of Mathlib for the random numbers; nothing is assumed about independence. For delooze14 and yang22 the width is the one given by fix_scatter; yang22 is taken without its duty cycle (fduty=False). pullen13: redshifts within a range where the age is positive, duty cycle as in C45. An observation: log10normal documents preserve_linear_mean as True by default and has False (log10normal.py:14 and :3); no caller in the package relies on the default.

Theorems: `Gal.C139_scatter`, `Gal.C139_mean`, `Gal.C139_median`, `Gal.C139_total`

### C140 (proved) — Line luminosities follow the published relation for every parameter

Over the reals. The tables of the specification repeat the numbers of the code, which documents none of them elsewhere; they were not checked against the papers. Star formation rates are positive, as are slopes and conversions: numpy gives 0 for a rate of 0 (10 to the power of minus infinity), which real logarithms do not express. The names of lines used are those the code accepts; the documentation of uzgil14 and spinoglio12 spells two of them differently (C89).

Theorems: `Gal.C140_relation`, `Gal.C140_more`, `Gal.C140_unknown`, `Gal.C140_width`

### C141 (proved) — Quenched galaxies, starbursts and star formation rates occur with the published frequencies

Over the reals with the laws and the independence of Mathlib. Assumed of the generator: normal and even numbers, independent between the calls for the same galaxy, and a state that depends only on how many numbers were used. Galaxies whose stellar mass is NaN are left out here (C45).

Theorems: `Gal.C141_chances`, `Gal.C141_number`

### C142 (proved) — The parameters of a luminosity function are its amplitude, knee, slopes and minimum, and units do not matter

Closeness to the power laws does not depend on the minimum. Units and amplitude are changed together, by any two positive factors; count, cdf, pdf and ppf as scipy passes them on are compared. Numbers are real; rounding is left out.

Theorems: `LF.C142_modified`, `LF.C142_modified_rarer`, `LF.C142_doubled`, `LF.C142_doubled_rarer`, `LF.C142_modified_units`, `LF.C142_doubled_units`

### C143 (proved) — The light of ready-made properties adds up, on average, to that of the published relations

C110 and C139 together: property, handler and random numbers. The relations are written out as published, with real logarithms and powers; the tables of Behroozi et al. and the fits of Yang et al. are parameters. yang22 switches halos on with the global generator, its scatter comes from the generator of the function. The ladder of Kamenetzky et al. cannot be made (C110).

Theorems: `Ready.C143_total`

### C144 (proved) — Maps of ready-made properties show, on average, the light of the published relations in every cell

C143 and C100 together, for one property in the map. Positions are read as numbers; objects on an edge belong to the upper cell. Written in memory only (write_to_disk false), as in C143.

Theorems: `Ready.C144_map`

### C145 (proved) — The light of ready-made properties varies by the sum of the variances of the halos

Pairwise independence of the halos is an assumption on the generators (numpy's); an example of such generators is given. Together with C143 and C144; properties are kept in memory, as there.

Theorems: `Ready.C145_total`, `Ready.C145_map`

### C146 (proved) — Instruments record, on average, the light of the published relations

C143, C100 and C125 together. What a detector receives is that of C127, with its conventions: kernels with an even number of cells are centred half a cell off, and units are not compared. The noise is that of the call (its random numbers are held fixed). Properties are kept in memory, as in C143.

Theorems: `Ready.C146_observed`

### C147 (proved) — What an instrument records of a simulation is the light of its raw halos, whatever interrupted the formatting

C138 and C127 together; the selection is not empty, and the catalogue has positions and masses and all three components of vectors. Angles are position divided by distance, as in the code (C30). Not claimed here: that no halo is left out (C31, C138), that units of map and instrument agree (C127), or that calls repeated after a failure add the raw values (C138). Beams in kernels with an even number of cells are half a cell off (C105).

Theorems: `Inst.C147_observed`

### C148 (proved) — Samples of an instrument vary together by the light they share

Detector noise is held fixed: the covariance is over the random numbers of the property. SampleIs and SamplesVary are stated in Spec/ReadyNoise.lean with Mathlib's covariance; spread (C145) is the variance of one object's property.

Theorems: `Ready.C148_noise`

### C149 (proved) — White noise adds to every sample its own draw, and averages down with the time observed

White says that the noise function of a detector is white_noise (the function of the model, C104); Fresh says that the generators, made anew by white_noise for each field and detector when no rng is given, give independent standard normal numbers. A generator given by the user in noise_kwargs is the subject of C152.

Theorems: `Inst.C149_samples`, `Inst.C149_average`

### C150 (proved) — White noise adds to the variance of each sample and not to the covariance of samples

The sky may be any random family of states of instruments, such as those of C148; the noise is that of C149 (White, Fresh), on a second probability space. That sky and noise are independent is an assumption on the generators: white_noise makes its own.

Theorems: `Inst.C150_covariance`

### C151 (proved) — With white noise, samples of a ready-made property vary by the light they share and by the noise of each sample

C148 and C150 together, with their conventions: properties are kept in memory, units are not compared, and that the random numbers of the property and of the noise are independent is an assumption on the generators (a product measure).

Theorems: `Ready.C151_total`

### C152 (proved) — One generator for all detectors gives each sample its own noise

In the model of sample_fields the state of the generator for each field and detector is an input; handed gives the states in the order of the calls, and C152_handed says that each is what white_noise left at the call before. That the calls are made in this order (fields, then detectors) is read off the code. One call of sample_fields (two calls: C154); all detectors share the generator.

Theorems: `Inst.C152_handed`, `Inst.C152_shared`

### C153 (proved) — Samples of signal and noise are samples of the signal alone plus samples of the noise alone

The noise is that of C149 (White, Fresh). The same random numbers means the same states of the generators for each field and detector.

Theorems: `Inst.C153_parts`

### C154 (proved) — Successive observations with one generator have independent noise

Two calls; as in C152 the states of the generator are inputs of the model in the order of the calls, and C154_left says that the second call gets what white_noise left at the end of the first. Nothing else draws from the generator between the calls.

Theorems: `Inst.C154_left`, `Inst.C154_calls`

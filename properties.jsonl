{"id": "C01", "title": "Registered data paths are found again by later sessions", "statement": "After any history of registering simulation, lightcone or galaxy-property directories, a session that starts afterwards and reads the registry from disk resolves every name to exactly the directory most recently registered under it, and knows no other names.", "quantifier": "every sequence of registrations (any names, any paths, with or without overwrite confirmation) followed by a reload", "why_tests_cant": "The history of registrations is unbounded and the text file encoding has to be inverted for every name and path, including awkward characters; a test checks one name.", "anchors": ["simim/_paths.py:_SimIMPaths._newsimpath", "simim/_paths.py:_SimIMPaths._newlcpath", "simim/_paths.py:_SimIMPaths._newproppath", "simim/_paths.py:_checkload_path_file"]}
{"id": "C02", "title": "Registering one name leaves all others alone, and a declined overwrite changes nothing", "statement": "Registering a path changes the lookup of that name only; if the user is asked whether to overwrite and answers no, neither the session's lookups nor the registry file change; if no root directory has been set up the registration is refused and nothing changes.", "quantifier": "every registry state, every name and path, every finite sequence of prompt answers", "why_tests_cant": "Requires a frame argument over all other names and over all sequences of (possibly invalid) answers to the prompt.", "anchors": ["simim/_paths.py:_SimIMPaths._newsimpath"]}
{"id": "C03", "title": "The active selection is exactly the objects passing every range set since the last reset", "statement": "After any sequence of range restrictions on a handler, the active objects are exactly those whose value lies in every range applied since the last resetting call (bounds inclusive, NaN never inside), each listed once in catalogue order, and the reported number of active objects equals their number.", "quantifier": "every catalogue, every sequence of set_property_range calls with any properties, bounds and reset flags", "why_tests_cant": "Needs induction over an unbounded sequence of calls on catalogues of arbitrary size; tests check single restrictions.", "anchors": ["simim/_handlers.py:Handler.set_property_range"]}
{"id": "C04", "title": "Properties returned under one selection stay row-aligned", "statement": "For any two properties returned with the same selection, row i of both belongs to the same object, namely the i-th active object; with the full index all objects are returned in catalogue order.", "quantifier": "every catalogue, property pair and reachable selection", "why_tests_cant": "The alignment must hold for every reachable selection and every pair of properties.", "anchors": ["simim/_handlers.py:Handler.return_property"]}
{"id": "C05", "title": "Loading and unloading are invisible to readers", "statement": "For a property stored in the file, the values returned by the handler never depend on which properties have been loaded into or unloaded from memory before, as long as no property of that name is generated in memory: any two histories of load/unload/read calls give the same result.", "quantifier": "every file content and every history of load, unload and read calls", "why_tests_cant": "Quantifies over all interleavings of cache operations.", "anchors": ["simim/_handlers.py:Handler.load_property", "simim/_handlers.py:Handler.unload_property", "simim/_handlers.py:Handler.return_property"]}
{"id": "C06", "title": "A property the handler claims to have can be returned", "statement": "Whenever the handler reports that it has a property, asking for its values yields an array of values rather than nothing or an error.", "quantifier": "every reachable handler state (any history of load, unload, make, write, delete)", "why_tests_cant": "A failure only shows after particular histories (for example make then unload).", "anchors": ["simim/_handlers.py:Handler.has_property", "simim/_handlers.py:Handler.return_property", "simim/_handlers.py:Handler.unload_property"]}
{"id": "C07", "title": "Generated properties carry the function's values on the selection and NaN elsewhere", "statement": "After making a property on the active selection, each active object holds the value the function computed from that same object's inputs, and every inactive object holds NaN; no other property's values change.", "quantifier": "every catalogue, selection, elementwise function and number of generated properties", "why_tests_cant": "Scatter/gather index bookkeeping must be right for every selection.", "anchors": ["simim/_handlers.py:Handler.make_property"]}
{"id": "C08", "title": "The file on disk is only changed by explicit writes, and never by overwriting silently", "statement": "Range, load, unload, read and in-memory make operations never change the file. A write without overwrite permission never changes a dataset that already exists; any write or delete touches only the named dataset. A make-and-write on a restricted selection is refused.", "quantifier": "every history of handler calls, every file content", "why_tests_cant": "Frame property over all datasets and all call histories.", "anchors": ["simim/_handlers.py:Handler.write_property", "simim/_handlers.py:Handler.delete_property", "simim/_handlers.py:Handler.make_property"]}
{"id": "C09", "title": "h-unit conversion round-trips", "statement": "A galaxy property model evaluated with physical (h-free) inputs and stored in the catalogue's h-scaled convention is returned, when physical units are requested, as exactly the value the model produced; requesting h-scaled units and dividing out the stated power of h gives the same value.", "quantifier": "every positive h, every integer power of h, every value and both unit settings", "why_tests_cant": "Algebraic identity over all exponents and values across two modules (property evaluation and handler reads).", "anchors": ["simim/galprops/galprops.py:MultiProp.evaluate_all", "simim/_handlers.py:Handler.return_property"]}
{"id": "C10", "title": "A redshift is mapped to the snapshot that covers it", "statement": "For every redshift within the range covered by the simulation, the snapshot chosen for it is the one whose redshift interval contains it; redshifts outside the covered range are rejected.", "quantifier": "every list of snapshots tiling a redshift range and every redshift, including interval boundaries", "why_tests_cant": "Boundary values and the region outside the covered range are measure-zero or unsampled in tests.", "anchors": ["simim/siminterface/simhandler.py:SimHandler.z_to_snap"]}
{"id": "C11", "title": "Mass-limited reads lose no halo above the limit", "statement": "When a snapshot is read with a minimum mass, every halo at or above that mass is among the rows read.", "quantifier": "every catalogue sorted by decreasing mass, every mass limit (including limits between, on, above and below the tabulated cuts), both unit settings", "why_tests_cant": "Off-by-one and boundary behaviour of a lookup table must be right for every limit.", "anchors": ["simim/siminterface/simhandler.py:SimHandler.get_mass_index", "simim/siminterface/_rawsiminterface.py:SimCatalogs.format"]}
{"id": "C12", "title": "Formatted snapshots are sorted by mass with rows intact", "statement": "In a formatted snapshot the masses are in non-increasing order and there is one permutation of the raw halos such that every stored field, basic or extra, is the (unit-converted) raw field in that order: no halo is lost, duplicated or mixed with another.", "quantifier": "every raw snapshot (any number of halos, ties in mass, any fields)", "why_tests_cant": "Needs the permutation to be the same for every field and every input including ties and empty snapshots.", "anchors": ["simim/siminterface/_rawsiminterface.py:SimCatalogs.format"]}
{"id": "C13", "title": "The stored mass-cut table counts halos above each cut", "statement": "For each tabulated mass cut, the stored index is the number of halos in the snapshot with mass at or above the cut, so the first `index` rows are exactly those halos; indices never decrease as cuts decrease.", "quantifier": "every snapshot and every cut", "why_tests_cant": "Must hold for all mass distributions, including empty snapshots and masses equal to a cut.", "anchors": ["simim/siminterface/_rawsiminterface.py:SimCatalogs.format"]}
{"id": "C14", "title": "Incremental formatting keeps exactly the right snapshots", "statement": "After any sequence of formatting runs (all snapshots, adding some, replacing some, remaking), each snapshot holds the data of the last run that formatted it, snapshots not named in a run are untouched, and the metadata lists every formatted snapshot exactly once in increasing order.", "quantifier": "every sequence of format calls with any snapshot subsets and options", "why_tests_cant": "History property over arbitrary sequences of runs.", "anchors": ["simim/siminterface/_rawsiminterface.py:SimCatalogs.format"]}
{"id": "C15", "title": "Interrupted formatting loses no raw data and is not mistaken for complete", "statement": "If formatting is interrupted at any point, every snapshot listed in the file's metadata has its data in the file or still has its raw file, raw data of a snapshot are deleted only after that snapshot has been written, and metadata never lists a snapshot without data.", "quantifier": "every crash point in every formatting run", "why_tests_cant": "Crash points cannot be enumerated by unit tests.", "anchors": ["simim/siminterface/_rawsiminterface.py:SimCatalogs.format"]}
{"id": "C16", "title": "Snapshot intervals tile cosmic time", "statement": "The redshift ranges assigned to consecutive snapshots share their common boundary, contain the snapshot's own redshift, and together cover the range from redshift zero to the first snapshot without gaps or overlaps.", "quantifier": "every increasing list of snapshot redshifts and every strictly decreasing redshift-age relation", "why_tests_cant": "A statement about every list of snapshots and every monotone cosmology.", "anchors": ["simim/siminterface/_rawsiminterface.py:Snapshot.dif_snap", "simim/siminterface/illustris.py:IllustrisCatalogs.download_meta"]}
{"id": "C17", "title": "Grid geometry is consistent and covers the requested region", "statement": "A grid built from a centre, side length and pixel size has, along every axis, one more edge than cells, uniform cells of exactly the pixel size, the requested centre, and an extent that covers the requested side length.", "quantifier": "every centre, positive side length and positive pixel size, any number of dimensions", "why_tests_cant": "Rounding of the pixel count has to be right for every ratio of side to pixel.", "anchors": ["simim/map/gridder.py:Grid.__init__", "simim/map/gridder.py:_axis_edges"]}
{"id": "C18", "title": "Gridding a catalogue conserves the total", "statement": "Adding a catalogue to a grid increases the sum over all cells of a property by exactly the sum of the values of the objects inside the grid; every object inside lands in exactly one cell, the one whose half-open interval contains it on every axis; objects outside contribute nothing.", "quantifier": "every catalogue of any size, every grid, any positions including exact cell edges", "why_tests_cant": "Conservation over all positions, including those exactly on cell boundaries.", "anchors": ["simim/map/gridder.py:Grid.add_from_cat"]}
{"id": "C19", "title": "Gridding is independent of object order and of batching", "statement": "Permuting the catalogue, or adding it in several pieces, gives the same grid and object count.", "quantifier": "every catalogue, every permutation, every split", "why_tests_cant": "Quantifies over permutations and splits.", "anchors": ["simim/map/gridder.py:Grid.add_from_cat", "simim/map/gridder.py:Grid.add_from_spec_func"]}
{"id": "C20", "title": "Sampling a grid reads the cell that gridding would fill", "statement": "Sampling a position inside the grid returns the value of the one cell that an object at this position would be added to; a position outside returns NaN; sampling changes nothing.", "quantifier": "every grid and every position", "why_tests_cant": "Agreement of two indexing routines on all positions including edges.", "anchors": ["simim/map/gridder.py:Grid.sample", "simim/map/gridder.py:Grid.add_from_cat"]}
{"id": "C21", "title": "Padding is undone by removing the padding", "statement": "Padding any set of axes by any amounts and then padding by the negative amounts restores the grid values, edges and cell centres; padding keeps every old cell at its old position and adds only zero cells.", "quantifier": "every grid, every list of distinct axes, every non-negative padding amount", "why_tests_cant": "Index bookkeeping for arbitrary axis subsets and orders.", "anchors": ["simim/map/gridder.py:Grid.pad", "simim/map/gridder.py:_unpad"]}
{"id": "C22", "title": "Cropping keeps exactly the cells inside the limits", "statement": "Cropping an axis keeps exactly the cells whose centre lies within the limits, with their values and coordinates unchanged, and refuses if no cell would remain; on refusal the grid is unchanged.", "quantifier": "every grid and all limits, including limits between adjacent cell centres", "why_tests_cant": "Degenerate limits are rarely tested.", "anchors": ["simim/map/gridder.py:Grid.crop"]}
{"id": "C23", "title": "Transforming to Fourier space and back is the identity", "statement": "Applying the Fourier transform and then its inverse along any axes restores the grid values exactly (in exact arithmetic) and the real-space axes, for any pixel sizes and numbers of cells.", "quantifier": "every grid size, pixel size, set of axes and data", "why_tests_cant": "Exact inversion for every size; floating-point tests only sample a few sizes.", "anchors": ["simim/map/gridder.py:Grid.fourier_transform"]}
{"id": "C24", "title": "Computing a power spectrum leaves the input map as it was", "statement": "Computing a power spectrum without in-place modification returns a new grid and leaves the original (and any cross map) in the space it was in, with the same values; the auto power spectrum is non-negative and a cross spectrum of a map with itself equals its auto spectrum.", "quantifier": "every grid, axis set and normalisation", "why_tests_cant": "State restoration for every combination of axis flags.", "anchors": ["simim/map/gridder.py:Grid.power_spectrum"]}
{"id": "C25", "title": "Collapsing an axis preserves the total", "statement": "Summing over any axes gives a grid whose total equals the total of the original for each property, with exactly those axes removed; a weighted mean lies between the minimum and maximum of the averaged cells.", "quantifier": "every grid shape, every list of axes in any order", "why_tests_cant": "Index arithmetic when several axes are removed, in any order.", "anchors": ["simim/map/gridder.py:Grid.collapse_dimension"]}
{"id": "C26", "title": "Spherical averages use every cell of every shell", "statement": "Every Fourier or real-space cell whose distance falls within the range covered by the shells contributes to exactly one shell, and the average of a shell lies between the minimum and maximum of its cells.", "quantifier": "every grid and every set of shell edges", "why_tests_cant": "Boundary shells are easily dropped and a few numeric examples do not reveal it.", "anchors": ["simim/map/gridder.py:Grid.spherical_average"]}
{"id": "C27", "title": "Chunked spectral gridding equals one-pass gridding", "statement": "Adding object spectra in chunks of any size gives the same grid as evaluating all objects at once.", "quantifier": "every catalogue, chunk size and row-wise spectrum function", "why_tests_cant": "Quantifies over all chunk sizes and catalogue lengths.", "anchors": ["simim/map/gridder.py:Grid.add_from_spec_func"]}
{"id": "C28", "title": "Copies and sums of grid properties work for any number of properties", "statement": "Copying a grid, copying a subset of its properties, and summing properties out of place succeed for any grid and selected properties, give the selected values, and never change the original.", "quantifier": "every number of properties and every selection", "why_tests_cant": "Metadata/array length mismatches appear only for particular numbers of properties.", "anchors": ["simim/map/gridder.py:Grid.copy", "simim/map/gridder.py:Grid.copy_axes", "simim/map/gridder.py:Grid.sum_properties"]}
{"id": "C29", "title": "Every lightcone object is a periodic image of its source halo", "statement": "The position of every object in a lightcone is, up to one fixed rotation of the sky and one fixed mirroring and origin shift per snapshot and realisation, the position of the catalogue halo it is linked to plus a whole number of box lengths along each axis.", "quantifier": "every box, halo list, origin, line of sight, rotation, number of box tilings and slice", "why_tests_cant": "Holds for all random draws, numbers of replications and slices; outputs are random so tests cannot compare.", "anchors": ["simim/lightcone/lcmaker.py:LCMaker.build_lightcones"]}
{"id": "C30", "title": "Lightcone objects lie inside the requested geometry", "statement": "Every object in a lightcone has a comoving distance within the requested range and an angular position inside the requested aperture, and its stored distance is the length of its stored position vector.", "quantifier": "every catalogue, aperture shape and size, aspect ratio, redshift range and random draw", "why_tests_cant": "For all objects of all realisations; randomised output.", "anchors": ["simim/lightcone/lcmaker.py:LCMaker.build_lightcones"]}
{"id": "C31", "title": "Lightcone slices cover the line of sight exactly once", "statement": "The distance slices used to fill a lightcone partition the range covered by each snapshot: no distance is skipped and none is filled twice, and the number of slices per snapshot keeps every slice within the periodic box.", "quantifier": "every distance range, box size, buffer and number of slices", "why_tests_cant": "Gap/overlap at slice boundaries has measure zero.", "anchors": ["simim/lightcone/lcmaker.py:LCMaker.build_lightcones"]}
{"id": "C32", "title": "Lightcone rows are ordered by distance and the redshift index table is correct", "statement": "Within a realisation rows are in order of increasing distance, the rows of one snapshot form a contiguous block, and for each tabulated redshift the stored index is the number of objects with redshift at or below it.", "quantifier": "every realisation, any number of snapshots and slices", "why_tests_cant": "Induction over snapshots and slices of any number.", "anchors": ["simim/lightcone/lcmaker.py:LCMaker.build_lightcones"]}
{"id": "C33", "title": "Properties added to a lightcone belong to the object's source halo", "statement": "Adding a catalogue property to a lightcone gives each object exactly the value of that property for the halo it was made from, in the snapshot it was made from, also when the box was tiled and for vector properties consistently with the mirrored and rotated positions.", "quantifier": "every lightcone, snapshot, tiling and property", "why_tests_cant": "Index bookkeeping across tilings, snapshots and mass limits for all sizes.", "anchors": ["simim/lightcone/lcmaker.py:GenericGenericLCMaker.add_properties", "simim/lightcone/lcmaker.py:GenericLCMaker.add_pos_properties"]}
{"id": "C34", "title": "Unfinished lightcones are never reported as complete", "statement": "If building a lightcone or adding properties to it is interrupted at any point, the lightcone's completion flags do not claim the interrupted work is complete, and re-running the interrupted step produces correct data before claiming completion.", "quantifier": "every crash point of building and of adding properties, followed by any reruns", "why_tests_cant": "Crash points and reruns cannot be enumerated by tests.", "anchors": ["simim/lightcone/lcmaker.py:LCMaker.build_lightcones", "simim/lightcone/lcmaker.py:GenericGenericLCMaker.add_properties"]}
{"id": "C35", "title": "Existing lightcones are not destroyed without consent", "statement": "Creating a lightcone maker with a name that already exists deletes existing lightcones only if overwriting was requested or the user answered yes; otherwise existing files stay and the call does not proceed to overwrite.", "quantifier": "every existing set of files, every overwrite setting and every sequence of prompt answers", "why_tests_cant": "Sequences of prompt answers are unbounded.", "anchors": ["simim/lightcone/lcmaker.py:GenericLCMaker.__init__"]}
{"id": "C36", "title": "Spherical lightcones contain each halo at most once per snapshot, in the right region", "statement": "In a spherical, hemisphere, quarter or eighth lightcone each halo of a snapshot occurs at most once, at its nearest periodic image to the observer (or, for an eighth, in the positive octant), inside the requested shell and region; the requested shell is refused if it does not fit in the box.", "quantifier": "every catalogue, origin, shell and mode", "why_tests_cant": "Random origin; boundary images.", "anchors": ["simim/lightcone/lcmaker.py:SphereMaker.__init__", "simim/lightcone/lcmaker.py:SphereMaker.build_lightcones"]}
{"id": "C37", "title": "Lightcone volume is additive and respects the lightcone's bounds", "statement": "The comoving volume reported for a redshift range is the sum of the volumes of any split of the range, is non-negative, and requests for a region not contained in the lightcone are refused.", "quantifier": "every redshift split and sub-aperture", "why_tests_cant": "Additivity over all splits and containment over all shapes.", "anchors": ["simim/lightcone/lchandler.py:LCHandler.volume"]}
{"id": "C38", "title": "Statistics in redshift bins count each object once and leave the selection unchanged", "statement": "Evaluating a statistic in redshift bins uses for each bin exactly the selected objects in that bin, each object in at most one bin, and afterwards the active selection and the number of active objects are as before.", "quantifier": "every lightcone, selection, bin edges and statistic, including objects exactly on bin edges", "why_tests_cant": "Bin-edge objects and state restoration on every path.", "anchors": ["simim/lightcone/lchandler.py:LCHandler.eval_stat_evo"]}
{"id": "C39", "title": "Observations never use maps made with outdated detectors", "statement": "Sampling the sky succeeds for a field only if the field was mapped after the last change to any detector or response; otherwise it is refused. Hence every timestream sample equals what mapping with the current detectors would give.", "quantifier": "every history of adding/removing/changing detectors and fields, mapping and sampling", "why_tests_cant": "Invariant over all interleavings of instrument operations.", "anchors": ["simim/instrument/instrument.py:Instrument.sample_fields", "simim/instrument/instrument.py:Instrument.map_fields", "simim/instrument/instrument.py:Instrument._set_response"]}
{"id": "C40", "title": "Grouping detectors with equal beams or pointings does not change the result", "statement": "Mapping and sampling evaluate detectors in groups that share a beam or a pointing; each detector belongs to exactly one group and the result for each detector, in the order of the detector list, equals the result of evaluating it alone.", "quantifier": "every list of detectors with any equalities between their responses and pointings", "why_tests_cant": "Partition property over all configurations.", "anchors": ["simim/instrument/instrument.py:Instrument._find_spatial_clones", "simim/instrument/instrument.py:Instrument._find_pointing_clones", "simim/instrument/instrument.py:Instrument.map_fields", "simim/instrument/instrument.py:Instrument.sample_fields"]}
{"id": "C41", "title": "Adding a detector or field is all-or-nothing and names stay unique", "statement": "If adding a detector fails, the instrument is as before (apart from the name counter); names of detectors and of fields are always unique, and automatically chosen names never collide with existing names.", "quantifier": "every instrument history and every way the call can fail", "why_tests_cant": "All failure points in all states.", "anchors": ["simim/instrument/instrument.py:Instrument.add_detector", "simim/instrument/instrument.py:Instrument.add_field"]}
{"id": "C42", "title": "The requested field property is the one observed", "statement": "When a field is added with a chosen property index, the index is accepted exactly if the field has such a property, and the maps and samples are made from that property.", "quantifier": "every field, number of properties and index", "why_tests_cant": "Wrong-index errors do not show for single-property fields used in tests.", "anchors": ["simim/instrument/instrument.py:Instrument.add_field", "simim/instrument/instrument.py:Instrument.map_fields"]}
{"id": "C43", "title": "Abundance matching preserves rank and total abundance", "statement": "Matching a halo catalogue to a distribution function assigns values that never decrease with halo mass, gives the same answer whether halos are passed one at a time or as an array, and assigns to a halo of cumulative fraction q the q-quantile of the target distribution (after accounting for missing fractions).", "quantifier": "every catalogue, every target distribution and every halo", "why_tests_cant": "Extremes of the distribution (the most massive halo) and all catalogues.", "anchors": ["simim/galprops/galprops_am.py:am_dfcat", "simim/galprops/galprops_am.py:am_dfdf"]}
{"id": "C44", "title": "Bundled galaxy property models evaluate like their functions", "statement": "Evaluating a bundle of properties returns, in the stated order, exactly the values of the underlying function for the given inputs and keyword arguments; units and h scalings may be given once or per property; mismatched argument counts are refused.", "quantifier": "every function, list of names, argument names and keyword settings", "why_tests_cant": "Configuration space of optional lists.", "anchors": ["simim/galprops/galprops.py:MultiProp.__init__", "simim/galprops/galprops.py:MultiProp.evaluate_all", "simim/galprops/galprops.py:Prop.evaluate"]}
{"id": "C45", "title": "Duty cycles and luminosity cuts behave as documented", "statement": "Duty-cycle fractions lie in [0,1]; line luminosities are zero for halos that are switched off or below the minimum mass and unchanged otherwise; star-formation rates lie between zero and the stated limit and no galaxy is both quenched and starbursting.", "quantifier": "every mass, redshift, random draw and parameter value", "why_tests_cant": "For all random draws and parameters.", "anchors": ["simim/galprops/line_co.py:keating16", "simim/galprops/line_co.py:pullen13", "simim/galprops/line_co.py:lidz11", "simim/galprops/line_co_dutycycle.py:f_duty", "simim/galprops/sfr_bethermin17.py:bethermin17_base.b17_sfr"]}
{"id": "C46", "title": "A supplied random generator determines the result", "statement": "Every galaxy property model that accepts a random generator gives the same output when called twice with generators in the same state, whatever other random calls happen elsewhere.", "quantifier": "every model accepting a generator, every generator state and every global random state", "why_tests_cant": "Hidden use of global random state is only visible under arbitrary interleaving.", "anchors": ["simim/galprops/sfr_behroozi13.py:behroozi13_base.sfr", "simim/galprops/line_fir_yang.py:yang22", "simim/galprops/log10normal.py:log10normal"]}
{"id": "C47", "title": "Multi-file catalogues load as the concatenation of their chunks", "statement": "Loading a field of an Illustris-type group catalogue returns the chunks' values in file order, whatever the sizes of the chunks (including empty chunks), with every field having the declared total number of objects.", "quantifier": "every number and size of chunks, every set of fields", "why_tests_cant": "Offsets for all chunk sizes, including empty ones.", "anchors": ["simim/siminterface/_illustris_datahandling.py:_loadObjects"]}
{"id": "C48", "title": "Each advertised raw field maps to its own property with one unit conversion", "statement": "Each property name offered for a simulation refers to a distinct raw field, every documented property is available, and the documented unit conversion of each field is applied.", "quantifier": "every simulation and field in the tables", "why_tests_cant": "Later entries of a literal table silently replace earlier ones.", "anchors": ["simim/siminterface/illustris.py:IllustrisCatalogs.__init__"]}
{"id": "C49", "title": "Metadata collection orders snapshots and pairs them with their own files", "statement": "Metadata lists snapshots in order of increasing number whatever order the server lists them in, and each listed snapshot is paired with its own raw file.", "quantifier": "every order and number of snapshots returned by the server", "why_tests_cant": "Servers return one particular order in tests.", "anchors": ["simim/siminterface/illustris.py:IllustrisCatalogs.download_meta", "simim/siminterface/universemachine.py:UniversemachineCatalogs.download_meta"]}
{"id": "C50", "title": "A file changed through a handler can be opened again", "statement": "After any history of making, writing and deleting properties through a handler (the mass property not being deleted), a new handler can be opened on the file.", "quantifier": "every file content and every history of handler calls, including calls that fail part way", "why_tests_cant": "Depends on which call fails after how much of the file has been changed.", "anchors": ["simim/_handlers.py:Handler.write_property", "simim/_handlers.py:Handler.delete_property", "simim/_handlers.py:Handler.__init__"]}
{"id": "C51", "title": "Properties written to disk are read back unchanged by a new handler", "statement": "After a property has been written, a handler opened on the file later returns for it exactly the values the writing handler returns, in h units and in physical units.", "quantifier": "every reachable handler state, every list of properties written, both unit systems", "why_tests_cant": "Must hold for every value, power of h and earlier history.", "anchors": ["simim/_handlers.py:Handler.write_property", "simim/_handlers.py:Handler.__init__", "simim/_handlers.py:Handler.return_property"]}
{"id": "C52", "title": "A lightcone contains every halo at or above its minimum mass", "statement": "A lightcone built with minimum_mass contains every halo of the simulation whose mass is at or above it and whose position lies in the lightcone.", "quantifier": "every simulation, halo mass distribution, value of h and minimum mass", "why_tests_cant": "Depends on the relation between the requested mass, the stored mass cuts and the unit system for all values.", "anchors": ["simim/lightcone/lcmaker.py:GenericLCMaker.__init__", "simim/lightcone/lcmaker.py:LCMaker.build_lightcones", "simim/siminterface/simhandler.py:SimHandler.get_mass_index"]}
{"id": "C53", "title": "A property made for a whole simulation exists in every snapshot", "statement": "After make_property on a simulation with write=True succeeds, every requested snapshot's file contains the property, computed from that snapshot's own data; an already existing property is not replaced unless overwriting was asked for.", "quantifier": "every set of snapshots, every combination of already existing properties and every option", "why_tests_cant": "Whether a later snapshot differs from the first one is a matter of history.", "anchors": ["simim/siminterface/simhandler.py:SimHandler.make_property", "simim/siminterface/simhandler.py:SimHandler.delete_property"]}
{"id": "C54", "title": "A simulation can be opened with all snapshots initialised", "statement": "SimHandler(..., init_snaps=True) opens a formatted simulation and makes a handler for every snapshot.", "quantifier": "every formatted simulation", "why_tests_cant": "A call with a wrong keyword fails for every input.", "anchors": ["simim/siminterface/simhandler.py:SimHandler.__init__", "simim/siminterface/simhandler.py:SimHandler.initialize_all_snaps"]}
{"id": "C55", "title": "Snapshots of one simulation are formatted alike", "statement": "All snapshots of a formatted simulation have the same properties whether they were formatted in one run or added to an existing file later.", "quantifier": "every field table, every division of the snapshots into runs", "why_tests_cant": "Needs two code paths to agree for every table.", "anchors": ["simim/siminterface/_rawsiminterface.py:SimCatalogs.format"]}
{"id": "C56", "title": "A saved grid is loaded unchanged", "statement": "A grid saved to a path can be loaded from the same path and then has the same axes, units, space, values and object count.", "quantifier": "every reachable grid, every path", "why_tests_cant": "Depends on the history of the grid (properties added after construction) and on the path.", "anchors": ["simim/map/gridder.py:Grid.save", "simim/map/gridder.py:LoadGrid.__init__"]}
{"id": "C57", "title": "Saving without overwrite never replaces a file", "statement": "Grid.save with overwrite=False leaves every existing file as it was.", "quantifier": "every path and every set of existing files", "why_tests_cant": "Depends on all names, including ones the library completes itself.", "anchors": ["simim/map/gridder.py:Grid.save"]}
{"id": "C58", "title": "A power spectrum is labelled with the axes it is in", "statement": "The axes that a power spectrum reports as Fourier axes are exactly those along which the transform was taken.", "quantifier": "every grid and every choice of axes", "why_tests_cant": "Holds or fails for each subset of axes.", "anchors": ["simim/map/gridder.py:Grid.power_spectrum"]}
{"id": "C59", "title": "Fourier cell edges surround their centres", "statement": "Along every Fourier axis the stored cell edges increase and cell number k lies between edges k and k+1, half-way.", "quantifier": "every grid", "why_tests_cant": "For every number of cells and pixel size.", "anchors": ["simim/map/gridder.py:_axis_edges", "simim/map/gridder.py:Grid.__init__"]}
{"id": "C60", "title": "The geometry of a grid stays consistent under any sequence of operations", "statement": "After any sequence of initialising, padding, cropping, rescaling, adding and summing properties and copying, the stored number of pixels, pixel size, side length, centre, edges, centres, Fourier axes and the shape of the data describe one and the same grid.", "quantifier": "every grid and every sequence of operations, including ones that raise", "why_tests_cant": "Invariant over histories.", "anchors": ["simim/map/gridder.py:Grid"]}
{"id": "C61", "title": "Rescaling an axis uses the factor given for it", "statement": "scale_axis(ax, factor) multiplies positions and pixel sizes of axis ax[j] by factor[j] and divides its Fourier coordinates by it; the other axes and the data stay as they are.", "quantifier": "every grid, list of axes and factors", "why_tests_cant": "The order and choice of axes matter for all combinations.", "anchors": ["simim/map/gridder.py:Grid.scale_axis"]}
{"id": "C62", "title": "Down-sampling combines neighbouring cells", "statement": "down_sample replaces blocks of cells by one cell holding their mean or sum and adjusts the axes accordingly.", "quantifier": "every grid and factor dividing the number of cells", "why_tests_cant": "For every shape.", "anchors": ["simim/map/gridder.py:Grid.down_sample"]}
{"id": "C63", "title": "A Fourier cell holds the transform at its labelled frequency", "statement": "After fourier_transform, the value in position k of a Fourier axis is the (normalised) discrete transform of the map at the frequency that the grid lists for position k.", "quantifier": "every map, axis and number of cells, even or odd", "why_tests_cant": "The order of frequencies depends on the parity of the number of cells.", "anchors": ["simim/map/gridder.py:Grid.fourier_transform"]}
{"id": "C64", "title": "A power spectrum is a well-formed grid", "statement": "The grid returned by power_spectrum reports as many properties and cells as its data have.", "quantifier": "every pair of maps accepted for a cross spectrum", "why_tests_cant": "Depends on the numbers of properties of both maps.", "anchors": ["simim/map/gridder.py:Grid.power_spectrum"]}
{"id": "C65", "title": "Spherical averages come with their coordinates", "statement": "The coordinates returned by spherical_average for the axes that were not averaged are those of the cells of the map along these axes, in the space in which each axis is.", "quantifier": "every map, also partly Fourier transformed, and every choice of axes", "why_tests_cant": "Shown only by maps with axes in both spaces and coordinates that are checked against the data.", "anchors": ["simim/map/gridder.py:Grid.spherical_average"]}
{"id": "C66", "title": "A lightcone contains every periodic image inside its geometry", "statement": "Every periodic image of a catalogue halo (above the mass limit) that lies in front of the observer, inside the aperture and in the distance range of its snapshot is an object of the lightcone.", "quantifier": "every catalogue, box, aperture, redshift range and random draw that the maker accepts", "why_tests_cant": "Objects that are missing cannot be seen in the output; depends on the random line of sight.", "anchors": ["simim/lightcone/lcmaker.py:LCMaker._initialize_los", "simim/lightcone/lcmaker.py:LCMaker.build_lightcones"]}
{"id": "C67", "title": "Lines of sight respect the angular limits", "statement": "The line of sight chosen for a lightcone satisfies both limits on its angles to the faces of the box, so that the lightcone does not run along a face.", "quantifier": "every aperture, box and sequence of random draws", "why_tests_cant": "Depends on the sequence of rejected draws.", "anchors": ["simim/lightcone/lcmaker.py:LCMaker._initialize_los"]}
{"id": "C68", "title": "A valid request for a lightcone is fulfilled", "statement": "build_lightcones succeeds for every redshift range covered by the simulation once a line of sight has been accepted.", "quantifier": "every simulation, redshift range (including ranges that begin or end where the range of a snapshot does), aperture and random draw", "why_tests_cant": "Fails only at particular redshifts that no random test would pick.", "anchors": ["simim/lightcone/lcmaker.py:LCMaker.__init__", "simim/lightcone/lcmaker.py:LCMaker.build_lightcones"]}
{"id": "C69", "title": "Iterating over a set of lightcones covers the last build", "statement": "After building n lightcones under a name, opening the set without giving numbers iterates over exactly these n lightcones, also when lightcones of that name existed before and were overwritten with consent.", "quantifier": "every earlier content of the set, every number of lightcones and all settings of both builds", "why_tests_cant": "Depends on the files left by every possible history of builds.", "anchors": ["simim/lightcone/lcmaker.py:LCMaker.build_lightcones", "simim/lightcone/lchandler.py:LCIterator.__init__"]}
{"id": "C70", "title": "Sky coordinates of light spheres point at the objects", "statement": "The right ascension and declination of every object of a light sphere give the direction of its position from the observer, with right ascension in [0, 2 pi) and declination in [-pi/2, pi/2].", "quantifier": "every catalogue, origin, shell and mode; every object not exactly at the observer", "why_tests_cant": "Quadrants of arctan2 and boundary directions cannot all be sampled.", "anchors": ["simim/lightcone/lcmaker.py:SphereMaker.build_lightcones"]}
{"id": "C71", "title": "Vector properties can be added to light spheres", "statement": "Adding a vector property of the simulation to a set of light spheres gives every object the vector of its source halo, or is refused without changing the files.", "quantifier": "every set of light spheres and every vector property", "why_tests_cant": "Failure in the middle of a change of several files.", "anchors": ["simim/lightcone/lcmaker.py:GenericLCMaker.add_pos_properties", "simim/lightcone/lcmaker.py:SphereMaker.build_lightcones"]}
{"id": "C72", "title": "Refused requests for lightcones change nothing", "statement": "If creating a maker of lightcones or light spheres is refused (name, mode, redshift range or size), the stored sets of lightcones are as before, and the name is free if it was free before.", "quantifier": "every request, answer to the question and state of the disk", "why_tests_cant": "All combinations of refusals and states of the disk.", "anchors": ["simim/lightcone/lcmaker.py:GenericLCMaker.__init__", "simim/lightcone/lcmaker.py:LCMaker.__init__", "simim/lightcone/lcmaker.py:SphereMaker.__init__"]}
{"id": "C73", "title": "Keywords of statistics in redshift bins", "statement": "Evaluating a statistic in redshift bins passes the caller's extra keyword arguments unchanged in every bin, together with the edges and the volume of that bin where requested; the caller's dictionary is unchanged and later calls are not affected.", "quantifier": "every sequence of calls, all bins, keywords and options", "why_tests_cant": "Depends on the history of calls that share a default argument.", "anchors": ["simim/lightcone/lchandler.py:LCHandler.eval_stat_evo"]}
{"id": "C74", "title": "Sets of lightcones opened together are consistent", "statement": "Opening a set of lightcones together succeeds for every set the makers build, and an accepted set consists of lightcones of the same cosmology, geometry and redshift range, so that the volume reported is that of each of them.", "quantifier": "every set of lightcones and light spheres", "why_tests_cant": "All combinations of parameters and shapes.", "anchors": ["simim/lightcone/lchandler.py:LCIterator.__init__", "simim/lightcone/lchandler.py:LCIterator.volume"]}
{"id": "C75", "title": "Maps can be made with a documented kernel size", "statement": "Mapping fields with the size of the kernel given as a whole number of pixels, as documented, succeeds whenever mapping with that size along each axis does.", "quantifier": "every instrument, field and kernel size", "why_tests_cant": "Depends on the type of an argument in a branch that usual calls do not take.", "anchors": ["simim/instrument/instrument.py:Instrument.map_fields", "simim/instrument/instrument.py:Instrument._setup_beam"]}
{"id": "C76", "title": "Detectors have the responses that were asked for", "statement": "A detector is added exactly if its name is new, its offset is a pair and its three responses are well defined by the arguments and the defaults; it then has exactly these, and no other detector changes. Setting a response changes that response of the named detectors (all if none is named) and nothing else; the defaults change only if the instrument itself is named.", "quantifier": "every instrument, every combination of arguments and defaults", "why_tests_cant": "All combinations of given and missing functions, keywords and defaults.", "anchors": ["simim/instrument/instrument.py:Instrument.add_detector", "simim/instrument/instrument.py:Instrument._set_response"]}
{"id": "C77", "title": "Properties that came with a simulation are protected", "statement": "make_property and delete_property called on a simulation never change or remove, in any snapshot's file, a property that the user did not create.", "quantifier": "every formatted simulation, property function and list of names", "why_tests_cant": "The check looks at one snapshot; snapshots may differ.", "anchors": ["simim/siminterface/simhandler.py:SimHandler.make_property", "simim/siminterface/simhandler.py:SimHandler.delete_property"]}
{"id": "C78", "title": "A failed make_property on a simulation can be repeated", "statement": "If make_property with write=True fails on a simulation, the file is unchanged, so that the same call can be repeated once the cause is removed.", "quantifier": "every simulation, property and snapshot at which the call fails", "why_tests_cant": "Depends on which snapshot fails.", "anchors": ["simim/siminterface/simhandler.py:SimHandler.make_property"]}
{"id": "C79", "title": "Snapshots use the units chosen for the simulation", "statement": "A snapshot obtained from a simulation uses the h-unit convention last chosen for the simulation, for values and for the box size.", "quantifier": "every history of calls on a simulation", "why_tests_cant": "Depends on the order of opening snapshots and choosing units.", "anchors": ["simim/siminterface/simhandler.py:SimHandler.get_snap", "simim/siminterface/simhandler.py:SimHandler.set_in_h_units"]}
{"id": "C80", "title": "Statistics of listed snapshots are those of these snapshots", "statement": "snap_stat for a list of snapshots returns, in order, the statistic of each of these snapshots, evaluated on its own objects, with its redshift.", "quantifier": "every simulation, statistic and list of snapshots", "why_tests_cant": "Snapshot numbers and positions in the file agree for the usual examples.", "anchors": ["simim/siminterface/simhandler.py:SimHandler.snap_stat"]}
{"id": "C81", "title": "Deleting from a simulation removes exactly the named properties", "statement": "delete_property on a simulation, when it succeeds, removes the named properties from every snapshot's file and changes nothing else.", "quantifier": "every formatted simulation and list of names", "why_tests_cant": "All files and combinations of names.", "anchors": ["simim/siminterface/simhandler.py:SimHandler.delete_property"]}
{"id": "C82", "title": "Restricting a simulation selects in each snapshot by its own values", "statement": "set_property_range on a simulation makes active in each snapshot exactly the objects of that snapshot whose own value lies in the range (in addition to earlier restrictions unless they are reset); it is refused if the snapshots are not held.", "quantifier": "every history of restrictions, every simulation", "why_tests_cant": "All snapshots and histories.", "anchors": ["simim/siminterface/simhandler.py:SimHandler.set_property_range"]}
{"id": "C83", "title": "The number of volumes in a simulation", "statement": "number_volumes returns the number of times the given volume fits into the simulation box, in either unit convention.", "quantifier": "every simulation and volume", "why_tests_cant": "A ratio may be inverted; equal in the usual check with the volume of the box.", "anchors": ["simim/siminterface/simhandler.py:SimHandler.number_volumes"]}
{"id": "C84", "title": "Halos read from binary UniverseMachine catalogues", "statement": "Formatting a binary UniverseMachine catalogue takes exactly the halos without the removed flag, in file order with the values of the file, and positions inside the periodic box.", "quantifier": "every list of records and fields", "why_tests_cant": "All records, flags and positions.", "anchors": ["simim/siminterface/universemachine.py:UniversemachineCatalogs._bin_loader"]}
{"id": "C85", "title": "Fields of Uchuu from different files belong together", "statement": "Formatting a Uchuu snapshot gives for every field exactly the values of the data file it is in; files with different numbers of halos are refused, and known fields with equal numbers are accepted.", "quantifier": "every set of data files and every list of fields", "why_tests_cant": "All combinations of files and lengths.", "anchors": ["simim/siminterface/uchuu.py:UchuuCatalogs._loader"]}
{"id": "C86", "title": "Matched properties can be converted there and back", "statement": "The two functions returned by abundance matching are inverse to each other: converting a value of the first property within the matched range to the second property and back returns the original value, in either order of matching.", "quantifier": "every catalogue of different values, every pair of distributions, all missing fractions that belong together, both orders", "why_tests_cant": "All catalogues, distributions and values between the catalogue's points.", "anchors": ["simim/galprops/galprops_am.py:am_dfcat", "simim/galprops/galprops_am.py:am_dfdf"]}
{"id": "C87", "title": "Values without a counterpart follow the extrapolation option", "statement": "Where abundance matching is asked for a value outside the matched range, the result is the one chosen by the extrapolation option of the property that is asked for.", "quantifier": "every catalogue, distribution, option and value", "why_tests_cant": "All combinations of options, sides and missing fractions.", "anchors": ["simim/galprops/galprops_am.py:am_dfcat", "simim/galprops/galprops_am.py:am_dfdf"]}
{"id": "C88", "title": "Without randomness every galaxy gets the value it gets alone", "statement": "If scatter and random duty cycles are switched off, the value a galaxy property model gives to a galaxy in an array is the value it gives to the galaxy passed alone; the duty cycle of a galaxy depends only on its own redshift, not on which other galaxies are in the same call.", "quantifier": "every line luminosity model, every array of galaxies of any length, every position in it, every age-redshift relation", "why_tests_cant": "the computation switches to an interpolated table above a hidden array length; only a statement about arrays of every length and content settles that the values agree", "anchors": ["simim/galprops/line_co_dutycycle.py: f_duty", "simim/galprops/line_co.py: keating16, li16, pullen13, lidz11", "simim/galprops/line_densegas.py: hcn_gao, hcn_breysse", "simim/galprops/line_fir.py", "simim/galprops/line_fir_yang.py: yang22"]}
{"id": "C89", "title": "Every documented line and galaxy set can be used", "statement": "Each line, transition or galaxy set that the documentation of a line luminosity model lists is accepted, for a single galaxy given by numbers as well as for arrays, with every setting of the scatter and duty cycle options.", "quantifier": "every model, every documented option value, all galaxies, all settings of scatter and duty cycle, all generators", "why_tests_cant": "there are many combinations of line, set, option and input type, and a failing one is only seen by a caller who uses exactly it", "anchors": ["simim/galprops/line_fir.py: delooze14, uzgil14, spinoglio12, schaerer20", "simim/galprops/line_fir_yang.py: yang22, _yang22_ci_fit, _yang22_co_fit", "simim/galprops/line_co.py: kamenetzky16"]}
{"id": "C90", "title": "A galaxy property model gives one value per galaxy or raises", "statement": "A call of a galaxy property model that does not raise an exception returns numbers, one for every galaxy it was called with; problems are never reported by returning something else.", "quantifier": "every model, all arguments (numbers, arrays, arrays of different lengths), all generators, before and after the set-up of the tables", "why_tests_cant": "a returned non-value surfaces only when the property is used; it depends on the state of the installation, not on the arguments", "anchors": ["simim/galprops/sfr_behroozi13.py: behroozi13_base.sfr, stellarmass", "simim/galprops/line_co.py", "simim/galprops/line_fir.py", "simim/galprops/line_fir_yang.py: yang22", "simim/galprops/log10normal.py: log10normal"]}
{"id": "C91", "title": "Tabulated luminosity functions describe one distribution", "statement": "For the luminosity functions that are tabulated (modified Schechter, double power law), the number of objects above a limit, the cumulative distribution and the quantiles belong to the same set of objects: the number above the lowest value is the sum over the table, the cumulative distribution is a fraction that never decreases, is zero at the lowest value and gives the part of the objects below each value of the table, and the quantile of the cumulative fraction of a value is that value.", "quantifier": "every positive luminosity function, all parameters and lower limits, every value between the ends of the table", "why_tests_cant": "All functions, limits and values, including every position between the ten thousand values of the table.", "anchors": ["simim/galprops/galprops_am.py:modified_schechter_gen", "simim/galprops/galprops_am.py:double_powerlaw_gen"]}
{"id": "C92", "title": "Schechter functions count what they integrate", "statement": "For the Schechter and double Schechter functions the number of objects above a limit is the integral of the luminosity function above it, for every slope; the cumulative distribution is the part of the objects below a value, an array of values gets the values its elements get alone, and the quantiles undo the cumulative distribution.", "quantifier": "every slope (also below minus one), amplitude, characteristic value and lower limit, every value, arrays of every length", "why_tests_cant": "The incomplete gamma function is continued by a recursion whose depth depends on the slope; agreement with the integral for all real slopes is a statement of analysis.", "anchors": ["simim/galprops/galprops_am.py:schechter_gen", "simim/galprops/galprops_am.py:double_schechter_gen", "simim/galprops/galprops_am.py:_uppergammamod"]}
{"id": "C93", "title": "Densities of luminosity functions are normalised", "statement": "The probability density of each luminosity function adds up to one over the range of the function, and its integral up to a value is the cumulative distribution there.", "quantifier": "every function, all parameters, every value", "why_tests_cant": "The integral over all values for all parameters cannot be tested value by value.", "anchors": ["simim/galprops/galprops_am.py:schechter_gen", "simim/galprops/galprops_am.py:double_schechter_gen", "simim/galprops/galprops_am.py:modified_schechter_gen", "simim/galprops/galprops_am.py:double_powerlaw_gen"]}
{"id": "C94", "title": "Heavier halos are never given less by a relation matched to a luminosity function", "statement": "A relation made by g13irlf_base or bethermin17_base gives, at the redshift of a snapshot, every halo the luminosity (or stellar mass) that as many galaxies exceed as there are heavier halos in the snapshot; so a heavier halo never gets less than a lighter one.", "quantifier": "All simulations, minimum masses, halo properties, luminosity functions, halo masses and snapshot redshifts.", "why_tests_cant": "The value of a halo depends on the whole catalogue of a snapshot; the value of the heaviest halos and of unmatched ones is easily missed by samples.", "anchors": ["simim/galprops/sfr_ir.py:g13irlf_base", "simim/galprops/sfr_bethermin17.py:bethermin17_base", "simim/galprops/galprops_am.py:am_dfcat"]}
{"id": "C95", "title": "Options of the tabulated relations are honoured", "statement": "A relation made anew by g13irlf_base is that of the luminosity function described by the arguments; options that are documented as ignored in some case are ignored in exactly this case; invalid options are refused.", "quantifier": "All simulations, options, luminosity function parameters and contents of the directory.", "why_tests_cant": "An ignored argument is only noticed by comparing relations for two values of the argument.", "anchors": ["simim/galprops/sfr_ir.py:g13irlf_base.__init__", "simim/galprops/sfr_ir.py:g13irlf_base.get_irlf_pars", "simim/galprops/sfr_bethermin17.py:bethermin17_base.__init__"]}
{"id": "C96", "title": "An interrupted construction of a relation leaves the old relation or the new one", "statement": "If the construction of a tabulated relation is interrupted at any point, objects created later have the relation that was there before, or the new one, or none if there was none before.", "quantifier": "All interruption points, earlier and later requests and simulations.", "why_tests_cant": "Crash points between the files cannot be enumerated by unit tests.", "anchors": ["simim/galprops/sfr_ir.py:g13irlf_base._make_lir_function", "simim/galprops/sfr_bethermin17.py:bethermin17_base._make_stellarmass_function"]}
{"id": "C97", "title": "A catalogue put into a grid is found in it completely", "statement": "Gridder puts every object of a catalogue that lies in the region asked for into the cell containing its position, once, with its own values in the order of the columns; without values objects are counted; without centre and side lengths the region is slightly larger than the catalogue, so that every object is in the grid. The result does not depend on the order of the objects.", "quantifier": "All catalogues, numbers of dimensions and columns, centres, side lengths, pixel sizes and units.", "why_tests_cant": "Objects at the border of the region and pixel sizes that divide the extent are special for every catalogue; all of them have to be covered.", "anchors": ["simim/map/gridder.py:Gridder.__init__"]}
{"id": "C98", "title": "A grid made from axes has these axes", "statement": "GridFromAxes makes a grid whose cells are the intervals between neighbouring edges of the given axes, and refuses axes that are not equally spaced; GridFromAxesAndFunction puts the value of the function at the centre of each cell into the cell.", "quantifier": "All equally spaced axes, upwards or downwards, of any length, all functions of cell centres, all roundings to nearest floating point numbers.", "why_tests_cant": "Whether the number of pixels comes out right depends on the rounding of two divisions; about one axis in forty is affected, and no finite set of axes shows all of them.", "anchors": ["simim/map/gridder.py:GridFromAxes.__init__", "simim/map/gridder.py:GridFromAxesAndFunction.__init__"]}
{"id": "C99", "title": "A gridded snapshot contains the selected halos in the units asked for", "statement": "SnapHandler.grid gives a grid of which every cell has the sums of the requested properties over the selected halos with positions in the cell, in the units asked for and times the normalisation; by default the grid has a hundred cells on each axis and covers the whole box, so that every selected halo is counted and the total over the grid is the total over the halos. Changing the unit system only rescales.", "quantifier": "All snapshots, selections, properties, limits, resolutions, normalisations and unit settings.", "why_tests_cant": "The cell of a halo depends on rounding at the faces of the box and on the selection made before; all positions in the box have to be covered.", "anchors": ["simim/siminterface/simhandler.py:SnapHandler.grid", "simim/map/gridder.py:Gridder"]}
{"id": "C100", "title": "A gridded lightcone contains the objects of the cone", "statement": "LCHandler.grid gives a grid in right ascension, declination and redshift, or observed frequency of a line, of which every cell has the sums of the requested properties over the selected objects in the cell times the normalisation; by default it covers the whole cone, so that every selected object is counted.", "quantifier": "All lightcones (boxes, circles, spheres), selections, properties, line frequencies, limits, resolutions and unit settings.", "why_tests_cant": "The conversion to frequencies reverses the order on the axis; the default limits depend on the shape of the cone; objects at the limits are rare in tests.", "anchors": ["simim/lightcone/lchandler.py:LCHandler.grid", "simim/map/gridder.py:Gridder", "simim/lightcone/lcmaker.py:LCMaker"]}
{"id": "C101", "title": "Point spread functions are Gaussians of the given width", "statement": "PSF makes a grid around zero in which each cell has the value of the product of Gaussian profiles with the given full widths at half maximum at the centre of the cell, over six widths unless a side length is given; normalised to a sum of one with norm 'area', and to a peak value of one with norm 'peak'; it is symmetric about its middle.", "quantifier": "All numbers of dimensions, widths, pixel sizes and side lengths, both norms.", "why_tests_cant": "Whether a cell lies in the middle depends on the parity of the number of cells, and this on the rounding of the side length; all widths and pixel sizes have to be covered.", "anchors": ["simim/map/gridder.py:PSF.__init__"]}
{"id": "C102", "title": "Frequency dependent point spread functions have the width of their channel", "statement": "SpectralPSF makes a grid with one channel per given frequency, in which each channel has the Gaussian with the full width at half maximum fwhm0*(spec0/spec)^exp of the frequency it is labelled with, normalised in each channel, over six widths unless a side length is given; axes that are not equally spaced are refused.", "quantifier": "All numbers of dimensions, widths, frequencies (ascending or descending), exponents, pixel sizes and side lengths, both norms.", "why_tests_cant": "A reversed order of channels gives a plausible beam; the labels have to be compared with the widths for all channels.", "anchors": ["simim/map/gridder.py:SpectralPSF.__init__"]}
{"id": "C103", "title": "Convolving a map spreads every cell by the source, centred on that cell, whatever the padding", "statement": "Convolving a grid with a source grid (for example a point spread function) replaces the value of each cell by the sum of what arrives from the cells around it; a single point becomes the source around this point, so a source that is the same on both sides gives a response that is the same on both sides of the point; the padding requested is removed again and makes no difference; the total is multiplied by the total of the source when this does not reach over the border; the convolution can be done along the axes that the user names; the variant that is not in place leaves the grid unchanged and gives the same values; and a request that cannot be fulfilled leaves the grid as it was.", "quantifier": "All regular grids of any number of axes, cells and properties, all sources with at most as many axes, all axes, paddings and values.", "why_tests_cant": "Tests use small maps with one padding and symmetric odd kernels; the statement needs every size and parity, every padding, all cells at the border and all failures.", "anchors": ["simim/map/gridder.py: Grid.convolve", "simim/map/gridder.py: Grid.pad", "simim/map/gridder.py: Grid.copy"]}
{"id": "C104", "title": "Responses and noise of detectors are what their parameters say", "statement": "The built-in beams are one in their centre and one half at half their width, the same on both sides and for each frequency, given one value for each position and frequency; the beam that depends on frequency scales its widths by the documented power and, with the default power, narrows with frequency as a typical beam does; the Gaussian and box-shaped spectral responses have the given height, centre and width, so that the channels counted by a box add up to its width; white noise is one value per sample with a level that falls with the square root of the time per sample, is reproduced by the generator that was passed, and drawing it in parts makes no difference; arguments that make no sense are refused.", "quantifier": "all axes, frequencies, widths, centres, exponents, heights, numbers of samples, time steps, noise levels and states of the random number generator", "why_tests_cant": "A test compares a beam at a few positions; it cannot show the profile for all widths and frequencies, nor that a box counts the right number of channels wherever its ends lie, nor what happens for every state of a generator.", "anchors": ["simim/instrument/spatial_response.py: gauss_psf", "simim/instrument/spatial_response.py: gauss_psf_freq_dependent", "simim/instrument/spectral_response.py: gauss_response", "simim/instrument/spectral_response.py: boxcar_response", "simim/instrument/noise_functions.py: white_noise", "simim/instrument/_helpers.py: _check_shape"]}
{"id": "C105", "title": "The map that a detector makes of a field", "statement": "Mapping a field with a detector gives a map with the field's axes on the sky. Each cell holds the mean over the channels, weighted by the spectral response at their frequencies, of the field smeared in each channel by the spatial response at that frequency; the response is divided by its greatest value or its sum over the kernel if this normalisation is asked for. A point appears in its own cell with its value times the share of the spectral response, the image has equal sides if the response has, a uniform field keeps its value away from the border if the beam has unit area, maps add up, and padding makes no difference. Without a kernel size the kernel spans ten times the best resolution.", "quantifier": "all fields, shapes, pixel sizes, response functions, normalisations, kernel sizes, paddings and positions", "why_tests_cant": "A test maps one source with one beam; it cannot show the value in every cell for every kernel size and response, and kernels with an even number of cells are not tried.", "anchors": ["simim/instrument/instrument.py: Instrument._setup_beam", "simim/instrument/instrument.py: Instrument.map_fields", "simim/map/gridder.py: Grid.convolve", "simim/map/gridder.py: Grid.collapse"]}
{"id": "C106", "title": "Downloading brings every missing file, and an interrupted download can be resumed", "statement": "A call of download() fetches every raw file of the catalogue's snapshots that is missing, to the place where it is looked for later, and changes no other file; a second call does nothing; redownload=True replaces every file. If the call is interrupted at any moment, the files that were there are unchanged, and calling download() again completes the data.", "quantifier": "All simulations, paths, lists of snapshots and data files, contents of the disk, moments of interruption and further calls.", "why_tests_cant": "The statement is about every moment of interruption and every path; tests do not download, and the effect of a path that happens to contain a part of a file name is not tried.", "anchors": ["simim/siminterface/universemachine.py:UniversemachineCatalogs.download", "simim/siminterface/uchuu.py:UM_UchuuCatalogs.download", "simim/siminterface/illustris.py:IllustrisCatalogs.download"]}
{"id": "C107", "title": "Deleting raw data deletes the raw data and nothing else", "statement": "clean_raw deletes nothing unless the user answers 'y', and then deletes the folder raw of the simulation with everything in it and nothing else. Deleting raw data while formatting deletes all the raw files of the snapshot that was formatted and of no other snapshot.", "quantifier": "All paths, sequences of answers, contents of the disk, simulations and snapshots.", "why_tests_cant": "Deletion is permanent: the statement is about every path the user may choose (spaces included) and every other file on the disk.", "anchors": ["simim/siminterface/_rawsiminterface.py:SimCatalogs.clean_raw", "simim/siminterface/_rawsiminterface.py:SimCatalogs.format", "simim/siminterface/uchuu.py:UM_UchuuCatalogs._get_rawsnapfiles", "simim/siminterface/universemachine.py:UniversemachineCatalogs._get_rawsnapfiles", "simim/siminterface/illustris.py:IllustrisCatalogs._get_rawsnapfiles"]}
{"id": "C108", "title": "A catalogue has the snapshots asked for, their metadata, and says what is missing", "statement": "Opening the catalogues of a simulation gives those of the snapshots asked for that exist, each once and in increasing order, and the metadata that download_meta saved, with one row for each of its snapshots; snapshots whose raw data are missing are reported, and after download() none are. Whenever saving the metadata is interrupted, a catalogue can be opened later and the metadata be fetched again.", "quantifier": "All lists of snapshots, states of the metadata files, moments of interruption and later calls.", "why_tests_cant": "The two metadata files are saved one after the other; only a statement about every moment of interruption and every later call shows whether the simulation stays usable.", "anchors": ["simim/siminterface/_rawsiminterface.py:SimCatalogs.__init__", "simim/siminterface/universemachine.py:UniversemachineCatalogs.download_meta", "simim/siminterface/uchuu.py:UM_UchuuCatalogs.download_meta", "simim/siminterface/illustris.py:IllustrisCatalogs.download_meta"]}
{"id": "C109", "title": "Star formation rates and stellar masses from the tables of Behroozi et al.", "statement": "For every halo, whatever its redshift and mass, the star formation rate and the stellar mass without scatter are those of the published table: the tabulated value at a tabulated redshift and mass, the bilinear interpolation between neighbouring ones, and the value at the border for halos outside of the table; where the table gives no star formation rate, the one of the heaviest halo at that redshift for which it does. No value is below the smallest or above the greatest tabulated one. The files made from the table by the first `import simim` after setupsimim are read by all later ones, which write nothing; if the first one is interrupted, the next one succeeds.", "quantifier": "all tables, redshifts, masses, contents of the disk, moments of interruption and later imports", "why_tests_cant": "A test compares a few values; the statement is about every redshift and mass, also those outside of the table and next to missing entries, and about every moment at which the first import may be interrupted.", "anchors": ["simim/galprops/sfr_behroozi13.py: behroozi13_base.__init__", "simim/galprops/sfr_behroozi13.py: behroozi13_base.sfr", "simim/galprops/sfr_behroozi13.py: behroozi13_base.stellarmass", "simim/galprops/sfr_behroozi13.py: behroozi13"]}
{"id": "C110", "title": "The ready-made galaxy properties give every halo the value of the published relation", "statement": "Each property that the package provides ready-made (line luminosities, star formation rates, stellar masses) can be evaluated for, and added to, any snapshot or light cone that has the properties it needs: every selected halo gets the value of the published relation for its own mass, star formation rate and redshift in units without h, under the documented name and unit; halos that are not selected get NaN; nothing else changes; and if a property it needs is missing, an exception is raised.", "quantifier": "all ready-made properties, states of a handler, selections, numbers of halos and values", "why_tests_cant": "Tests evaluate one or two of these properties for a few halos; the statement is about every one of them, every selection and every number of halos, and ranges over the units and conversions on the way.", "anchors": ["simim/galprops/galprops_builtin.py", "simim/galprops/galprops.py: Prop.evaluate", "simim/_handlers.py: Handler.make_property", "simim/galprops/line_co.py", "simim/galprops/line_fir.py", "simim/galprops/line_densegas.py", "simim/galprops/sfr_behroozi13.py"]}
{"id": "C111", "title": "Plots and histograms show the selected objects", "statement": "Plotting properties of a snapshot or light cone draws, for each name, one point per selected object with its own two values in the requested units (all objects and on top of them the active ones if a comparison is asked for), with the caller's keywords; a histogram is made of the values of the selected objects, or of their logarithms; earlier plots have no influence on later ones; names that are not properties raise; the caller's keywords are used as documented and not changed.", "quantifier": "all states a handler can reach, properties, selections, units, keyword dictionaries and sequences of calls", "why_tests_cant": "Figures are looked at, not tested; a pair of values from different objects still looks like a scatter plot; the default dictionary is shared between all calls.", "anchors": ["simim/_handlers.py: Handler.plot", "simim/_handlers.py: Handler.hist", "simim/_handlers.py: Handler.return_property"]}
{"id": "C112", "title": "The lists of properties describe the handler and its file", "statement": "After any sequence of calls extract_keys lists, each once, what can be returned, what is in memory, what is in the file and what was made since opening: 'saved' are the properties in the file, 'any' those that were there at the beginning and those made since, everything loaded or saved can be returned; changing the returned lists does not change the handler; other names of lists raise.", "quantifier": "all files, sequences of calls (also failing ones) and names", "why_tests_cant": "The four lists are updated at different places; only an invariant over all sequences of calls shows that they agree with each other and with the file.", "anchors": ["simim/_handlers.py: Handler.extract_keys", "simim/_handlers.py: Handler.make_property", "simim/_handlers.py: Handler.write_property", "simim/_handlers.py: Handler.delete_property"]}
{"id": "C113", "title": "The pictures and animations of a grid show its cells where they are", "statement": "visualize shows, along the two axes asked for, in each place the sum over the cells that are there (restricted to the slices asked for), between the edges of the cells and with the units of the axes; the frames of animate show one slide after the other, each with the cells at their positions and the position of the slide as title; impossible requests are refused.", "quantifier": "all grids with at least two (three) dimensions, all axes, slices (also negative ones), properties, in map or Fourier space", "why_tests_cant": "a picture is looked at by eye, if at all; transposed images of square grids and cells displaced by half a pixel look plausible", "anchors": ["simim/map/gridder.py:Grid.visualize", "simim/map/gridder.py:Grid.animate", "simim/map/gridder.py:_axis_edges"]}
{"id": "C114", "title": "The animation of a lightcone shows each halo in the frame of its distance", "statement": "LCHandler.animate divides the distance between the minimum and maximum redshift into slides; each halo inside is visible, with a size and colour from the chosen properties, in the one frame whose slide it is in, whatever the units chosen, and the titles are the redshifts of the slides.", "quantifier": "all handlers of lightcones, selections, unit choices, properties and scales for colours and sizes", "why_tests_cant": "an animation is looked at by eye; halos missing at the ends of slides or displaced by a factor h are not noticed", "anchors": ["simim/lightcone/lchandler.py:LCHandler.animate"]}
{"id": "C115", "title": "Reference frequencies and plots of detectors are those of their responses", "statement": "The reference frequency chosen for a detector without a nominal one is that of the maximum of its spectral response (up to the tolerance of the search; the middle of a box); plot_detector_response shows, for each detector asked for, its spectral response around the reference frequencies and its spatial response at the right positions in the documented region; plot_spectral_response shows the spectra of all detectors; unknown names are refused.", "quantifier": "all spectral responses with one maximum, boxes, numbers of rounds of the search, detectors, names and limits", "why_tests_cant": "the search stops or gives up depending on where the maximum lies between the points of a grid of 50001 frequencies; a transposed picture of a round beam looks right", "anchors": ["simim/instrument/instrument.py:Instrument.add_detector", "simim/instrument/instrument.py:Instrument.plot_detector_response", "simim/instrument/instrument.py:Instrument.plot_spectral_response"]}
{"id": "C116", "title": "Standard deviations and logarithmic shells of spherical averages are those of the cells", "statement": "spherical_average with return_std and return_n gives for every shell the (biased or corrected) weighted standard deviation and the number of the cells in it, with respect to the average returned; it is zero only if the cells are equal; logarithmic shells are in constant proportion and cover all distances that are not zero; given edges are used whatever the mode, unknown modes are refused.", "quantifier": "all grids in map or Fourier space, axes, centres, shells, modes, weights", "why_tests_cant": "needs sums over arbitrary sets of cells; errors for complex numbers or in the outermost shell do not show in a test with a uniform map", "anchors": ["simim/map/gridder.py:Grid.spherical_average"]}
{"id": "C117", "title": "What was formatted is read back halo by halo", "statement": "After any sequence of formatting runs that end normally, the simulation can be opened, every snapshot it lists can be opened, and whatever is then loaded, unloaded or selected, row k of every property returned is the raw value (in the catalogue's units) of one and the same raw halo, converted by its power of h as asked; restricting a property to a range selects as many halos as the raw data have in it.", "quantifier": "all raw data, field tables, sequences of formatting runs and of handler operations, units and ranges", "why_tests_cant": "the path from raw data to a returned value crosses formatting, sorting, storage, metadata and caching, and depends on the history of runs and calls", "anchors": ["simim/siminterface/_rawsiminterface.py: SimCatalogs.format", "simim/siminterface/simhandler.py: SimHandler.__init__, SimHandler.get_snap, SnapHandler.__init__", "simim/_handlers.py: Handler.__init__, Handler.return_property, Handler.set_property_range"]}
{"id": "C118", "title": "Lightcones of a formatted simulation are made of the raw halos", "statement": "After any sequence of formatting runs that end normally, lightcones can be built for every redshift range the simulation covers; every object has the mass of the raw halo its index stands for, its position is that of a periodic image of this same halo, and every property added later is that of this same halo; all raw halos at or above the minimum mass of every snapshot in the range are considered.", "quantifier": "all raw data, field tables, sequences of formatting runs, settings of lightcones, directions, properties added later", "why_tests_cant": "the path from the raw data to a lightcone crosses sorting, mass cuts, copies of the box, sorting by distance and a second pass for the added properties; a shift by one row anywhere gives plausible lightcones", "anchors": ["simim/siminterface/_rawsiminterface.py: SimCatalogs.format", "simim/lightcone/lcmaker.py: LCMaker.__init__, LCMaker.build_lightcones, _GenericLCMaker.add_properties", "simim/siminterface/simhandler.py: SimHandler.get_mass_index"]}
{"id": "C119", "title": "An opened lightcone shows its objects and the properties added to it", "statement": "After lightcones were built and properties were added, LCHandler opens each of them, has exactly its objects, lists exactly the properties stored, and shows positions, angles, redshifts and masses of the objects and, for each added property, the values of the sources of the objects, in the units asked for, whatever is loaded, unloaded or selected; a lightcone whose construction was interrupted cannot be opened, and properties whose values were not written are not shown.", "quantifier": "all lightcones, sequences of calls that add properties, interruptions of the last call or of the construction at any step, handler operations, units", "why_tests_cant": "needs every interruption of every call, and the path from the source halo through two passes of the maker to the handler; a wrong row is a plausible value", "anchors": ["simim/lightcone/lchandler.py: LCHandler.__init__", "simim/lightcone/lcmaker.py: LCMaker.build_lightcones, _LCMaker.add_properties, _LCMaker.add_pos_properties", "simim/_handlers.py: Handler.__init__, Handler.return_property"]}
{"id": "C120", "title": "A map of a lightcone has the objects of the lightcone with the values of their halos", "statement": "Gridding a property of an opened lightcone gives, in every cell, the sum over the selected objects whose angles and redshift (or observed frequency) are in the cell, in the units asked for; whatever was selected or loaded before, the map with the default limits has all selected objects, and the sum over its cells is the sum over the raw halos they are made of.", "quantifier": "all simulations formatted from raw data, lightcones built from them, properties added, handler operations, limits, pixel sizes, frequencies, units", "why_tests_cant": "the path from a raw halo to the cell of a map crosses formatting, the construction of the lightcone, the second pass for added properties, the handler and gridding; a halo missing at the edge of a map is not noticed", "anchors": ["simim/lightcone/lchandler.py: LCHandler.__init__, LCHandler.grid", "simim/lightcone/lcmaker.py: LCMaker.build_lightcones, _GenericLCMaker.add_properties", "simim/map/gridder.py: Gridder"]}
{"id": "C121", "title": "A call for a set of lightcones is the same call for each of them", "statement": "LCIterator opens the lightcones whose numbers are given (or all), each with its own handler; every call for the set has on each lightcone the effect of the same call for this lightcone alone and returns its results, listed by lightcone, whatever calls came before; a call that raises changes none of the lightcones.", "quantifier": "all sets of lightcones left by building, adding properties and interruptions; lists of numbers; sequences of calls, some of which raise; statistics and keywords", "why_tests_cant": "the lightcones share the arguments of a call, so that what one of them does to an argument reaches the next; a call that raises at one of many lightcones leaves a state that depends on all earlier calls", "anchors": ["simim/lightcone/lchandler.py: LCIterator.__init__, LCHandler.eval_stat_evo", "simim/_handlers.py: Handler.eval_stat, Handler.set_property_range, Handler.return_property"]}
{"id": "C122", "title": "Halos in a binary catalogue are read as they were written", "statement": "Loading a snapshot of a binary UniverseMachine catalogue gives, for every property asked for, the values that were written for each halo that is not flagged as unused, in the order of the file; a file that was cut off is refused.", "quantifier": "all lists of halos with all bit patterns of their numbers, lists of properties, lengths at which a file is cut off", "why_tests_cant": "needs every bit pattern of every number of a record and every point of truncation; a number that is read with a wrong type or offset is still a number", "anchors": ["simim/siminterface/universemachine.py: UniversemachineCatalogs._bin_loader"]}
{"id": "C123", "title": "Halos in a text catalogue are read as they were written", "statement": "Loading a snapshot of a text UniverseMachine catalogue gives, for every property asked for, the numbers that were written for each halo, in the order of the file, whatever comments precede them and however many halos there are; a file that was cut off is refused.", "quantifier": "all lists of halos, texts of their numbers, comments, lists of properties, characters at which a file is cut off", "why_tests_cant": "needs every number of halos and every point of truncation of every text; a shortened number is still a number", "anchors": ["simim/siminterface/universemachine.py: UniversemachineCatalogs._ascii_loader"]}
{"id": "C124", "title": "Halos are matched to the published stellar mass functions at their redshift", "statement": "When stellar masses are given to halos by abundance matching, the mass function used at the redshift of a snapshot has, at the middle of each published range of redshifts, the published slopes, the published characteristic mass rescaled with the square of the ratio of luminosity distances and the published amplitudes rescaled with the inverse ratio of volumes; between two neighbouring ranges slopes and first amplitude are interpolated linearly, the other two in the logarithm; outside the published ranges the nearest one is used; the function is valid at every redshift, so that the relation can be made for every simulation, and heavier halos do not get less stellar mass.", "quantifier": "all cosmologies with positive distances and volumes, all redshifts, all simulations", "why_tests_cant": "tests look at a few redshifts with one cosmology; the table has thirteen entries with two interpolation rules, and validity must hold at every redshift", "anchors": ["simim/galprops/sfr_bethermin17.py: bethermin17_base.b17_smfpars", "simim/galprops/sfr_bethermin17.py: bins_use", "simim/galprops/sfr_bethermin17.py: bethermin17_base"]}
{"id": "C125", "title": "What an instrument records of a sky", "statement": "After any history of calls, mapping a field and sampling it gives, for each detector and each requested position, shifted by the detector's pointing offset, the detector's noise plus the value, in the cell at that position, of the sky smeared by the detector's own beam at each frequency and averaged over the channels with the detector's own spectral response; NaN for positions off the map. This holds for every detector, beam, kernel, padding, normalisation and position.", "quantifier": "all histories of an instrument, sets of detectors with arbitrary responses and noise, skies, kernels of at least two cells per axis, positions", "why_tests_cant": "the result goes through grouping of detectors by beam and by pointing, convolution, averaging, stacking and sampling; a test sees one arrangement of detectors and one sky", "anchors": ["simim/instrument/instrument.py: Instrument.map_fields, Instrument.sample_fields, Instrument._setup_beam", "simim/map/gridder.py: Grid.convolve, Grid.collapse_dimension, Grid.sample"]}
{"id": "C126", "title": "A search for lines of sight comes to an end", "statement": "For every lightcone that LCMaker accepts, building it finds a line of sight: some random numbers give one, and the probability that none has been found goes to zero with the number of random numbers drawn.", "quantifier": "all boxes, numbers of copies, modes, opening angles, aspect ratios and distances; all sequences of random numbers", "why_tests_cant": "a search that never ends is seen by a test only as a timeout, for the one request tried; that no sequence of random numbers helps cannot be tested", "anchors": ["simim/lightcone/lcmaker.py: LCMaker.__init__, LCMaker._initialize_los, LCMaker.build_lightcones"]}
{"id": "C127", "title": "What an instrument records of a lightcone is the light of its objects", "statement": "The map of a property of a lightcone, after any calls of its handler, can be given to an instrument; what each detector then records at a position is its noise plus the sum over the selected objects of the lightcone of the object's value times the detector's beam between the two cells times its spectral response in the object's channel, divided by the sum of the spectral response over the channels. Objects outside of the map add nothing and no object is counted twice. An instrument that measures angles in another unit than the lightcone (radians) does not take the map.", "quantifier": "all lightcones, properties, histories of the handler and the instrument, limits, resolutions, norms, lines, detectors, beams, kernels and positions", "why_tests_cant": "it is a statement about the whole chain from handler over map to detector, for every object and every position; a test compares a few numbers of one map", "anchors": ["simim/lightcone/lchandler.py: LCHandler.grid", "simim/map/gridder.py: Gridder", "simim/instrument/instrument.py: Instrument.add_field, Instrument.map_fields, Instrument.sample_fields", "simim/instrument/_helpers.py: _check_grid_detector_compatibility"]}
{"id": "C128", "title": "Rescaled axes have the units they are given", "statement": "When axes of a grid are rescaled with new units, these are afterwards the units of just these axes, and the inverse units those of their Fourier axes: one unit for all of them, or one for each in the order of the axes. Otherwise units stay.", "quantifier": "all grids with or without units, all sets of axes and positive factors that can be rescaled at all (C61), all units: none, one text of any length, or a list; all sequences of such calls", "why_tests_cant": "Whether a unit survives depends on the lengths of the units the grid was made with; tests use units of equal length, or grids without units.", "anchors": ["simim/map/gridder.py: Grid.scale_axis", "simim/map/gridder.py: Grid.__init__", "simim/instrument/_helpers.py: _check_grid_detector_compatibility"]}
{"id": "C129", "title": "A snapshot that opens after an interruption is complete and true", "statement": "Whatever calls of format were made on a file, each completed, failed or interrupted at any point: a snapshot that can be opened has all the properties the call was to write, and each shows, halo by halo in one common order, the values of the raw catalogue, with the right units and powers of h.", "quantifier": "all histories of calls with any catalogues, options and raw data, each cut off at any write to the file; all later uses of the opened handler that do not change the property", "why_tests_cant": "a crash can come after any of the writes; tests see files that were written to the end", "anchors": ["simim/siminterface/_rawsiminterface.py: SimCatalogs.format", "simim/siminterface/simhandler.py: SimHandler, SnapHandler.__init__", "simim/_handlers.py: Handler.__init__"]}
{"id": "C130", "title": "Sessions running side by side share one registry of paths", "statement": "When several sessions (in one or several processes) register simulations, lightcones and relations or change the data directory, in any order of their turns, no registration is lost: a session begun later resolves every name to the path registered last by any of them under the current data directory. A running session resolves a name to what was registered most recently, and asks before a path registered by another session is replaced.", "quantifier": "all numbers of sessions, all interleavings of their accesses to the files, all calls and answers (names and paths without blanks and line breaks, as in C01)", "why_tests_cant": "the number of interleavings is not bounded, and tests run one session at a time", "anchors": ["simim/_paths.py: _SimIMPaths.__init__, _SimIMPaths._load_paths, _SimIMPaths._newsimpath, _SimIMPaths._newlcpath, _SimIMPaths._newproppath, _SimIMPaths._setuppath"]}
{"id": "C131", "title": "An interrupted registration leaves a registry that works", "statement": "If registering a path or setting the data directory is interrupted while writing, sessions can be begun afterwards, and resolve every name as before the call or as after it.", "quantifier": "all histories of calls, all calls, all points in the text being written", "why_tests_cant": "it is about every character of the file at which a write can be cut off, and about all calls made afterwards", "anchors": ["simim/_paths.py: _checkload_path_file, _checkload_root_file, _SimIMPaths._newsimpath, _SimIMPaths._newlcpath, _SimIMPaths._newproppath, _SimIMPaths._setuppath"]}
{"id": "C132", "title": "The fields of an instrument fit it", "statement": "Whatever sequence of calls a user makes, an instrument keeps the resolution and the units it was made with, and none of its fields has pixels larger than its best resolution; if fields are added with the checks on, each field is a three-dimensional cube with data, not in Fourier space, whose axes and chosen property have the units of the instrument wherever both have one; a field that does not fit is refused and nothing changes.", "quantifier": "all instruments, all grids, all histories of calls that do not change a grid from outside, and all fields", "why_tests_cant": "the checks are spread over two files and run once, when a field is added; that no later call can break the agreement concerns all sequences of calls", "anchors": ["simim/instrument/instrument.py: Instrument.add_field", "simim/instrument/_helpers.py: _check_grid_detector_compatibility", "simim/instrument/instrument.py: Instrument._setup_beam"]}
{"id": "C133", "title": "Several handlers on one catalogue", "statement": "Several handlers may be opened on the same catalogue and used in turn, in any order. Each then has the number of objects of the file and row-aligned properties; properties that nobody changes are returned by each of them as they are in the file; and a handler is not disturbed by others that make, write and delete only properties it does not use: its calls return the same, and its lists, loaded values and selection are the same. One would also like a property that one handler has changed in the file to be returned by the others as it is in the file now, in the units asked for.", "quantifier": "every well-formed file, every number of handlers, every interleaving of openings and calls, every property", "why_tests_cant": "tests use one handler at a time; here the claim is about every interleaving of calls through any number of handlers", "anchors": ["simim/_handlers.py: Handler.__init__", "simim/_handlers.py: Handler.return_property", "simim/_handlers.py: Handler.write_property", "simim/_handlers.py: Handler.delete_property", "simim/_handlers.py: Handler.make_property"]}
{"id": "C134", "title": "Catalogues, simulations and lightcones find each other by name", "statement": "A simulation opened by name (in any later session) is looked for in the directory that its catalogue was last said to use, lightcones where they were made, always under the data directory chosen last; names of unknown simulations are refused everywhere, and setting up remembers the data directory given.", "quantifier": "every sequence of setups, catalogues, simulations, lightcone makers and lightcones, each in a session of its own, every directory name and every sequence of answers", "why_tests_cant": "the places depend on the whole history of sessions and answers, and on the characters of the directory names", "anchors": ["simim/siminterface/_sims.py: _checksim", "simim/siminterface/_rawsiminterface.py: SimCatalogs.__init__", "simim/siminterface/simhandler.py: SimHandler.__init__", "simim/lightcone/lcmaker.py: LCMaker.__init__", "simim/lightcone/lchandler.py: LCHandler.__init__", "simim/_paths.py: setupsimim"]}
{"id": "C135", "title": "The light computed for the objects of a lightcone is what an instrument records", "statement": "A property that a galaxy model computes for the objects of a lightcone (make_property) keeps, object by object, the value computed, whatever is called afterwards short of replacing it or unloading it unwritten; a map of it has in each cell the sum over the objects there; and what the detectors of an instrument then record is their noise plus what their beam and band receive of the light of the objects.", "quantifier": "every built lightcone, every history of its handler before and after the property is made, every model that works object by object, every selection, map, instrument with its history, and list of positions", "why_tests_cant": "whether a value reaches the detector depends on the calls before and after it was computed, on the selection at both times, and on every step from the handler to the instrument", "anchors": ["simim/_handlers.py: Handler.make_property", "simim/_handlers.py: Handler.unload_property", "simim/lightcone/lchandler.py: LCHandler.grid", "simim/instrument/instrument.py: Instrument.add_field", "simim/instrument/instrument.py: Instrument.sample_fields"]}
{"id": "C136", "title": "A power spectrum contains the squared amplitudes of the waves in a map", "statement": "power_spectrum returns at each frequency the squared absolute value of the amplitude of the wave of that frequency in the map (for a cross spectrum the real part of the product with the other amplitude): the total power is the number of frequencies times the sum of the squared values (Parseval), moving a map around its edges changes nothing, opposite frequencies of a real map have the same power, frequency zero has the squared sum, and the power of a map made from a catalogue is that of the objects at their cells. It does not matter which axes of the map are in Fourier space.", "quantifier": "every map of any dimension and any numbers of cells (even or odd), all values, all sets of axes, cross maps, with and without normalisation, in place or not", "why_tests_cant": "the values depend on all values of the map, on the order in which frequencies are stored for even and odd numbers of cells, and on the space of every axis", "anchors": ["simim/map/gridder.py: Grid.power_spectrum", "simim/map/gridder.py: Grid.fourier_transform", "simim/map/gridder.py: Grid.add_from_cat"]}
{"id": "C137", "title": "The spherical average of a power spectrum is the mean power of the waves in each shell", "statement": "Averaging the power spectrum of a map in shells of frequency gives in each shell the mean of the squared amplitudes of the waves whose frequency is in it, and their number; the shells and what is outside of them together hold the total power that Parseval's theorem gives; a single object has the same power in all shells.", "quantifier": "every map of any dimension in real space, all values, all sets of axes, all increasing edges of shells (given or automatic), with and without normalisation", "why_tests_cant": "the result depends on all values of the map and on which of the frequencies fall between which edges", "anchors": ["simim/map/gridder.py: Grid.power_spectrum", "simim/map/gridder.py: Grid.spherical_average"]}
{"id": "C138", "title": "Lightcones made after interrupted formatting consist of the raw halos", "statement": "Format a simulation by any sequence of calls, each completed, failed or interrupted at any write to the file, and make lightcones from the file that is left. If building the lightcones ends normally, each object has the mass of one raw halo of its snapshot, at least the minimum mass, at the position of a periodic image of that halo; properties added by calls that end normally are those of the same raw halo, also if the call was made before and raised. If a snapshot can be read and the minimum mass lies within the range of the mass cuts, no halo at or above it is left out of it.", "quantifier": "All catalogues and raw data, all sequences of calls of format with interruptions after any number of writes, all settings and orientations of lightcones, all properties added.", "why_tests_cant": "Interruptions at every write, times all catalogues and geometries, cannot be listed; the consequences show only one program later.", "anchors": ["simim/siminterface/_rawsiminterface.py: SimCatalogs.format", "simim/lightcone/lcmaker.py: LCMaker.build_lightcones", "simim/lightcone/lcmaker.py: GenericLCMaker.add_properties", "simim/lightcone/lchandler.py: LCHandler.__init__"]}
{"id": "C139", "title": "Random scatter and random duty cycles keep the average they are documented to keep", "statement": "With scatter switched on, the logarithm of each luminosity or star formation rate is distributed normally around a centre with the documented width in dex. Where the documentation says that the mean is preserved (li16, hcn_gao, padmanabhan19, the star formation rates and stellar masses of Behroozi et al.) the average of each value, and so of every sum of values, is the value without scatter. For the other relations the value without scatter is the median: half of the values are at or below it, and the average is larger by the factor 10**(s**2 ln(10)/2). With a random duty cycle (lidz11, hcn_breysse, pullen13) the average is the value that the relation gives without it. Zeros remain zeros.", "quantifier": "every call with every parameter and any number of galaxies, every width, every generator of normal and even random numbers, every state of it", "why_tests_cant": "averages over all random numbers cannot be taken in a test, samples only show them to within noise", "anchors": ["simim/galprops/log10normal.py: log10normal", "simim/galprops/line_co.py: li16", "simim/galprops/line_co.py: keating16", "simim/galprops/line_co.py: pullen13", "simim/galprops/line_co.py: lidz11", "simim/galprops/line_densegas.py: hcn_gao", "simim/galprops/line_densegas.py: hcn_breysse", "simim/galprops/line_fir.py: delooze14", "simim/galprops/line_fir.py: padmanabhan19", "simim/galprops/line_fir_yang.py: yang22", "simim/galprops/sfr_behroozi13.py: behroozi13_base.sfr"]}
{"id": "C140", "title": "Line luminosities follow the published relation for every parameter", "statement": "Without scatter, li16, hcn_gao, delooze14, uzgil14, spinoglio12, schaerer20 and zhao13 give each galaxy with a positive star formation rate the positive luminosity that satisfies the published relation between the logarithms of both, with the slope and intercept given or tabulated for the line and galaxy set; more star formation means more light, and the other way round. Lines and sets that are not in the tables raise an exception. With scatter delooze14 scatters around the relation by the published width.", "quantifier": "every line, galaxy set, slope > 0, intercept, conversion of infrared light and rest frequency, any number of galaxies, all positive star formation rates", "why_tests_cant": "tests compare a few values; the relation must hold for all parameters, and an inverted slope or a misplaced constant can leave the defaults intact", "anchors": ["simim/galprops/line_co.py: li16", "simim/galprops/line_densegas.py: hcn_gao", "simim/galprops/line_fir.py: delooze14", "simim/galprops/line_fir.py: uzgil14", "simim/galprops/line_fir.py: spinoglio12", "simim/galprops/line_fir.py: schaerer20", "simim/galprops/line_fir.py: zhao13"]}
{"id": "C141", "title": "Quenched galaxies, starbursts and star formation rates occur with the published frequencies", "statement": "With independent random numbers, the star formation rates after Bethermin et al. 2017 make a galaxy of given stellar mass and redshift quenched (rate zero) with one minus the published fraction of star forming galaxies, and a starburst with the published fraction (1.5 per cent growing to 3 per cent at redshift one) of the star forming ones. The rates of ordinary galaxies and of starbursts below the limit are distributed log-normally with the given width around the main sequence (with its correction below redshift 0.5) times the factor of their kind. The average number of each kind in a catalogue is the sum of these chances.", "quantifier": "every stellar mass, redshift >= -1 and set of parameters for which the fraction is between 0 and 1 (with the defaults: every redshift >= 0), any number of galaxies, every upper bound of the rate below the limit, every random generator with independent numbers", "why_tests_cant": "frequencies over all random numbers can only be sampled by tests; the published fractions depend continuously on mass and redshift", "anchors": ["simim/galprops/sfr_bethermin17.py: bethermin17_base.b17_sfr", "simim/galprops/sfr_bethermin17.py: bethermin17_base.b17_sfms", "simim/galprops/sfr_bethermin17.py: bethermin17_base.b17_sffrac", "simim/galprops/sfr_bethermin17.py: bethermin17_base.b17_sbfrac", "simim/galprops/log10normal.py: log10normal"]}
{"id": "C142", "title": "The parameters of a luminosity function are its amplitude, knee, slopes and minimum, and units do not matter", "statement": "Towards faint objects a modified Schechter function is as close as wanted to the power law with the given amplitude and slope, towards bright objects it falls below every power law; a double power law follows one slope at each end and has half of its amplitude at the knee; no objects are below the minimum, and brighter objects are rarer. With luminosities in other units and with more objects, the numbers above a luminosity are multiplied by the amplitude, quantiles by the unit, and fractions and densities stay the same.", "quantifier": "every positive amplitude, knee and width, every slope (double power law: the bright slope larger; rarer: slope at least one, or both slopes positive), every minimum, all luminosities, every change of units and of amplitude", "why_tests_cant": "slopes are limits; that the tabulated answers do not depend on the unit of luminosity concerns every unit and every luminosity", "anchors": ["simim/galprops/galprops_am.py: modified_schechter_gen", "simim/galprops/galprops_am.py: double_power_law_gen"]}
{"id": "C143", "title": "The light of ready-made properties adds up, on average, to that of the published relations", "statement": "After a ready-made property was made for a snapshot or lightcone, the sum of its values over any of the selected halos is, on average over the random numbers, the sum of the published relations for their masses, star formation rates and redshifts, times the fraction of halos that are switched on (0.1 for Lidz and Breysse, 0.1/age for Pullen, the published duty cycle for Yang). Where the published relation is that of the median (Keating, De Looze, Uzgil, Spinoglio, Schaerer, Zhao, Yang), the average is higher by the factor 10^(s^2 ln10/2) for a scatter of s dex.", "quantifier": "every reachable state of a snapshot or lightcone that has the inputs, every selection, every subset of the selected halos, every ready-made property with one value per halo, every choice of names, random generators whose numbers have the right distributions and whose normal and even numbers are independent", "why_tests_cant": "averages over all random numbers can only be sampled; the sums concern every catalogue and selection", "anchors": ["simim/galprops/galprops_builtin.py: prop_li_co", "simim/galprops/line_co.py: li16", "simim/galprops/line_fir_yang.py: yang22", "simim/galprops/log10normal.py: log10normal", "simim/_handlers.py: Handler.make_property"]}
{"id": "C144", "title": "Maps of ready-made properties show, on average, the light of the published relations in every cell", "statement": "After a ready-made property was made for a lightcone, the map of it holds in every cell a number whose average over the random numbers is the normalisation times the sum of the published relations (times the fraction of halos switched on, and the factor of the scatter around a median) over the selected objects in the cell, at their right ascension, declination and redshift or observed frequency. Cells and axes do not depend on the random numbers.", "quantifier": "every reachable state of a lightcone with numeric positions and the inputs, every selection, every ready-made property with one value per halo that is not stored under the name of a position, limits, resolution (axes longer than 1.05 cells), rest frequency and normalisation, every cell, random generators whose numbers have the right distributions and whose normal and even numbers are independent", "why_tests_cant": "averages over all random numbers in all cells of all maps can only be sampled", "anchors": ["simim/galprops/galprops_builtin.py: prop_li_co", "simim/_handlers.py: Handler.make_property", "simim/lightcone/lchandler.py: LCHandler.grid", "simim/map/gridder.py: Grid.add_from_cat"]}
{"id": "C145", "title": "The light of ready-made properties varies by the sum of the variances of the halos", "statement": "If the random numbers of different halos do not depend on each other, the variance of the total of a ready-made property over any of the selected halos, and of every cell of its map (times the square of the normalisation), is the sum of the variances of the halos: f x^2 10^(2 s^2 ln10) for a published value x of the median, a scatter of s dex and a fraction f switched on, minus the square of the average (f x^2 10^(s^2 ln10) where the scatter preserves the mean).", "quantifier": "every reachable state of a snapshot or lightcone that has the inputs, every selection and subset of it, every ready-made property with one value per halo, all limits, resolutions and normalisations of maps, every cell, random generators whose numbers have the right distributions, are independent between halos, and whose normal and even numbers are independent", "why_tests_cant": "variances over all random numbers can only be sampled; reusing a random number for several halos changes only the variance, not the average", "anchors": ["simim/galprops/galprops_builtin.py: prop_li_co", "simim/galprops/log10normal.py: log10normal", "simim/_handlers.py: Handler.make_property", "simim/lightcone/lchandler.py: LCHandler.grid"]}
{"id": "C146", "title": "Instruments record, on average, the light of the published relations", "statement": "When the map of a ready-made property of a lightcone is added to an instrument, mapped with the beams and sampled, each detector records at each position a number whose average over the random numbers of the property is its noise plus what it receives of objects that shine with the published relations (times the fraction of halos switched on, and the factor of the scatter around a median), smeared by its beam and weighted by its spectral response. Positions off the map give NaN whatever the random numbers are, and adding, mapping and sampling succeed for all of them.", "quantifier": "every reachable state of a lightcone with numeric positions and the inputs, every selection, every ready-made property with one value per halo, limits, resolution, rest frequency and normalisation of the map, every history of an instrument whose detectors respond everywhere (with a beam that can be normalised and a response that does not add up to zero) and whose resolutions are not finer than the cells, every kernel of at least two cells a side, every padding (none or one number), list of positions (not integers with an integer pointing offset) and noise, random generators whose numbers have the right distributions and whose normal and even numbers are independent", "why_tests_cant": "averages over all random numbers for all instruments and pointings can only be sampled", "anchors": ["simim/galprops/galprops_builtin.py: prop_li_co", "simim/lightcone/lchandler.py: LCHandler.grid", "simim/instrument/instrument.py: Instrument.add_field", "simim/instrument/instrument.py: Instrument.map_fields", "simim/instrument/instrument.py: Instrument.sample_fields"]}
{"id": "C147", "title": "What an instrument records of a simulation is the light of its raw halos, whatever interrupted the formatting", "statement": "Format a simulation by any sequence of calls, each completed, failed or interrupted at any write; if lightcones can be made of the file that is left and properties can be added to them, open one, make any calls of its handler that do not replace positions or the property, and give the map of the mass or of an added property to an instrument. Adding, mapping and sampling succeed, and each detector records at each position its noise plus what it receives of the selected objects. Each of these objects is a periodic image of one raw halo of its snapshot, as read by one of the calls, with at least the minimum mass: at the angles of the image, with the redshift of its distance (or the frequency of a line there), and with the value of the raw property, converted by the power of h if values without h are asked for.", "quantifier": "all catalogues and raw data, all sequences of calls of format with interruptions after any number of writes, all settings and orientations of lightcones, all properties added, all histories of the handler and the instrument, all selections, limits, resolutions (axes longer than 1.05 cells), lines and normalisations of the map, all detectors with a beam that can be normalised and a response that does not add up to zero, kernels of at least two cells a side, positions (not integers with an integer pointing offset) and noise", "why_tests_cant": "the chain goes through five programs run one after the other; interruptions, geometries and instruments cannot be listed", "anchors": ["simim/siminterface/_rawsiminterface.py: SimCatalogs.format", "simim/lightcone/lcmaker.py: LCMaker.build_lightcones", "simim/lightcone/lcmaker.py: GenericLCMaker.add_properties", "simim/lightcone/lchandler.py: LCHandler.__init__", "simim/lightcone/lchandler.py: LCHandler.grid", "simim/instrument/instrument.py: Instrument.add_field", "simim/instrument/instrument.py: Instrument.map_fields", "simim/instrument/instrument.py: Instrument.sample_fields"]}
{"id": "C148", "title": "Samples of an instrument vary together by the light they share", "statement": "Take maps of a ready-made property of a lightcone with the same instrument for different random numbers. The covariance of any two samples, of the same or different detectors and positions, is the sum over the selected objects of what the first and the second sample record, without noise, of one unit of light of that object alone, times the variance of the object's property. In particular samples that see no object in common are uncorrelated, and the variance of one sample is the sum of the squares of its gains times the variances. A sample is a number for all random numbers if it is one for a single object.", "quantifier": "every reachable state of a lightcone with numeric positions and the inputs, every selection, every ready-made property with one value per halo, limits, resolution, rest frequency and normalisation of the map, every history of an instrument whose detectors respond everywhere (with a beam that can be normalised and a response that does not add up to zero) and whose resolutions are not finer than the cells, every kernel of at least two cells a side, every padding (none or one number), list of positions (not integers with an integer pointing offset) and noise, every pair of samples, random generators whose numbers have the right distributions, are independent between halos, and whose normal and even numbers are independent", "why_tests_cant": "covariances over all random numbers for all pairs of samples of all instruments can only be sampled", "anchors": ["simim/galprops/galprops_builtin.py: prop_li_co", "simim/lightcone/lchandler.py: LCHandler.grid", "simim/instrument/instrument.py: Instrument.add_field", "simim/instrument/instrument.py: Instrument.map_fields", "simim/instrument/instrument.py: Instrument.sample_fields"]}
{"id": "C149", "title": "White noise adds to every sample its own draw, and averages down with the time observed", "statement": "Whenever sampling fields without noise succeeds, sampling them with detectors that have white noise succeeds with the same fields, detectors and positions; NaN stays NaN and every other sample is the one without noise plus a number that follows the normal distribution around the bias of the detector with the variance rms^2/dt. The numbers of different fields, detectors and positions are independent. So the average of the samples of a detector at n positions is on average that of the samples without noise plus the bias, with the variance rms^2/(n dt) of one sample that takes n times as long.", "quantifier": "every history of an instrument, every choice of fields, every list of positions, every sample time dt > 0, every level rms >= 0 and bias for each detector, every set of positions at which the samples are numbers; generators made for each field and detector with independent standard normal numbers", "why_tests_cant": "distributions over all random numbers can only be sampled; noise shared between detectors or fields would show only in averages over them", "anchors": ["simim/instrument/instrument.py: Instrument.sample_fields", "simim/instrument/noise_functions.py: white_noise"]}
{"id": "C150", "title": "White noise adds to the variance of each sample and not to the covariance of samples", "statement": "When a sky that varies at random is observed with white noise that does not depend on it, sampling succeeds for every sky and every noise, each sample is on average the average sample without noise plus the bias of its detector, and the covariance of two samples is that of the samples without noise; only the covariance of a sample with itself, its variance, is larger, by rms^2/dt. So what different samples, detectors or fields have in common comes from the sky.", "quantifier": "every random family of histories of an instrument with the same detectors, every choice of fields and positions, every sample time dt > 0, level and bias of the detectors, every two samples that are numbers without noise and have a variance", "why_tests_cant": "covariances over all skies and all random numbers cannot be computed by running examples; noise shared by samples shows only in averages over many runs", "anchors": ["simim/instrument/instrument.py: Instrument.sample_fields", "simim/instrument/noise_functions.py: white_noise"]}
{"id": "C151", "title": "With white noise, samples of a ready-made property vary by the light they share and by the noise of each sample", "statement": "Take maps of a ready-made property of a lightcone with the same instrument, whose detectors have white noise, for different random numbers of the property and of the noise that do not depend on each other. Adding the map, mapping and sampling succeed for all of them. The covariance of any two samples is the sum over the selected objects of what the first and the second sample record, without noise, of one unit of light of that object alone, times the variance of the object's property; the covariance of a sample with itself is larger than this by rms^2/dt. A sample is a number for all random numbers if it is one for a single object.", "quantifier": "every reachable state of a lightcone with numeric positions and the inputs, every selection, every ready-made property with one value per halo, limits, resolution, rest frequency and normalisation of the map, every history of an instrument whose detectors respond everywhere (with a beam that can be normalised and a response that does not add up to zero) and whose resolutions are not finer than the cells, every kernel of at least two cells a side, every padding (none or one number), list of positions (not integers with an integer pointing offset), every sample time dt > 0, level rms >= 0 and bias of each detector, every pair of samples, random generators whose numbers have the right distributions, are independent between halos, and whose normal and even numbers are independent; generators of the noise for each field and detector with independent standard normal numbers", "why_tests_cant": "covariances over all random numbers of properties and noise, for all pairs of samples of all instruments, can only be sampled", "anchors": ["simim/galprops/galprops_builtin.py: prop_li_co", "simim/lightcone/lchandler.py: LCHandler.grid", "simim/instrument/instrument.py: Instrument.add_field", "simim/instrument/instrument.py: Instrument.map_fields", "simim/instrument/instrument.py: Instrument.sample_fields", "simim/instrument/noise_functions.py: white_noise"]}
{"id": "C152", "title": "One generator for all detectors gives each sample its own noise", "statement": "If the white noise of all detectors is drawn from one generator given as rng in noise_kwargs, the generator is handed from detector to detector and from field to field as white_noise left it, and the numbers added to the samples of one call are distributed as with generators of their own: normal around the bias with the variance rms^2/dt, and independent between fields, detectors and positions.", "quantifier": "every history of an instrument, every choice of fields without repetition for which sampling without noise succeeds, every list of positions, every sample time dt > 0, level rms >= 0 and bias of each detector; a generator with independent standard normal numbers", "why_tests_cant": "whether numbers are used twice depends on the order and size of all draws, for all numbers of fields, detectors and positions", "anchors": ["simim/instrument/noise_functions.py: white_noise", "simim/instrument/instrument.py: Instrument.sample_fields"]}
{"id": "C153", "title": "Samples of signal and noise are samples of the signal alone plus samples of the noise alone", "statement": "Whenever sampling the signal alone succeeds, sampling the noise alone (sample_signal=False) of detectors with white noise succeeds for the same fields, detectors and positions and gives a number, never NaN, for each; with the same random numbers, sampling both gives the signal alone with these numbers added (NaN where the signal is NaN). The numbers have the distribution of white noise and are independent between fields, detectors and positions.", "quantifier": "every history of an instrument, every choice of fields, every list of positions, every sample time dt > 0, level rms >= 0 and bias of each detector, generators made for each field and detector with independent standard normal numbers", "why_tests_cant": "holds for all random numbers, fields and pointings; a path for noise alone that differs from that for both would show only for some combinations of detectors", "anchors": ["simim/instrument/instrument.py: Instrument.sample_fields", "simim/instrument/noise_functions.py: white_noise"]}
{"id": "C154", "title": "Successive observations with one generator have independent noise", "statement": "If two calls of sample_fields follow each other and the white noise of all detectors comes from one generator given as rng, the second call goes on with the generator as the last detector of the last field left it in the first. The numbers added to the samples of each call are normal around the bias with the variance rms^2/dt of that call, and all numbers of both calls are independent, so that repeated observations average down.", "quantifier": "every two states of instruments, however reached (fields, detectors, levels and positions may change between the calls), every choice of fields without repetition for which sampling without noise succeeds, all time steps dt > 0, levels rms >= 0 and biases; a generator with independent standard normal numbers", "why_tests_cant": "whether numbers of the first call come again in the second depends on the size of all draws, for all numbers of fields, detectors and positions", "anchors": ["simim/instrument/noise_functions.py: white_noise", "simim/instrument/instrument.py: Instrument.sample_fields"]}

# Formal model of prjemian/spec2nexus in Lean 4

## 1. Approach

The Python sources in `/repo/spec2nexus` are modelled, function by function, as
total computable Lean functions over `List Char`, `Nat`, `Int`, `Rat`, association
lists and plain structures. Exceptions are values. Mutation is state passing: a
function that may raise half way returns *the state it left behind* together with
the exception (`Res σ = σ × Option PyErr`), so the partially updated objects a
Python caller would still hold, and the partially written files, are part of the model.

| directory of `lean/Verif/` | content |
|---|---|
| `Py/`    | the fragment of Python semantics the code uses (str methods, int()/float(), dict, sorted, regular expressions, strptime/mktime) and lemmas about it |
| `Model/` | the model of the repository code; each definition cites file:lines |
| `Spec/`  | small independent specifications used in theorem statements |
| `Lemmas/`| helper lemmas, frames, invariants |
| `Props/` | the property theorems `Cnn_...` with non-vacuity cases beside them |

A theorem about *every file* quantifies over all texts (`List Char`), over every
environment `Env` (timestamps, XML parser, XML schema validator), over every
registration order of the plugins `reg`, and over every character database
`UniDB` (what `\w` and `isdigit` say of characters outside ASCII), unless its
statement names a condition. Histories (refresh, the scanf cache, the plot
selector, registration, gallery runs that are killed) are lists of operations and
the theorems are proved by induction over them; crash points are all prefixes of the
writes of a run.

Where the code does not do what its documentation or name promises, the claim is
stated as promised, a concrete counterexample is proved (`_false`, `C06_short_scan`, …),
and the part that does hold is proved under an explicit condition (`_partial`).
Section 6 lists these disagreements.

## 2. Property by property: what is modelled, how it is proved

* C01 `dissect_file` (spec.py) → partition law by induction over the lines.
* C02 `is_spec_file*` → decision logic stated as iff over the file's content.
* C03, C04, C05 `read`, `SPEC_Scan.process`, `SPEC_Epoch.process` → fold invariant over the sections.
* C06 `refresh` → refinement to a fresh read, for all histories in which the file grows safely (`Safe`). Partial: the unrestricted statement is false, four counterexamples.
* C07, C65 `update_available`, `refresh` → decision logic for every file state; C65 partial: false if the file changes during `read` (`C65_lost_update`).
* C08–C11, C15 accessors → sortedness, permutation, stability.
* C12–C14 `__getitem__` → against a filter/slice specification, including which exception is raised.
* C16 → disjointness of the handler patterns for *every* word, lifted to every load order.
* C17, C30, C29, C67, C68, C69 → a frame lemma for every handler (generated, `Lemmas/Frames.lean`), then induction over the lines of the scan.
* C18 `PluginManager` → induction over the registration history.
* C19, C20, C23, C70 lazy interpretation → state machine invariants, by induction over accesses and lines; C70 for every opened file.
* C21, C22, C24, C25 `data_lines_postprocessing`, `combine_split_NM_lines` → against a table specification (`Spec/Data.lean`).
* C26, C27, C31 ragged tables of names and values → index specification (`Spec/Scan.lean`).
* C28, C32–C37 → laws of `utils.py` functions over all strings.
* C38, C39, C66 `eznx.py` → object heap with hard links (`Model/H5.lean`): frame, aliasing and read-back laws; `Props/AsType.lean`: reading with `astype=float`.
* C40, C41, C43, C45 `Writer.save`, `save_scan`, `oneD`, `mca_spectra` → *confinement*: every writer of a scan touches only objects under its entry or new ones (`Lemmas/H5`, `WriterConf`), so what is written for one scan survives the rest of the save.
* C42 `Writer.mesh` → partial: the statement is false (`C42_transposed`); exact description of what is stored.
* C44, C74–C76 what the entry holds of the lines of the scan → *slots* (`Lemmas/Slot*`): for each name in the entry, which writer fills it, carried through all writers in every registration order.
* C79–C81 positioners, `#H`/`#V` values and MCA settings → *zones* (`Lemmas/Zone*`): protected names of an entry together with those of its group `instrument`, which several writers and the final additions share; one invariant for all writers in every order.
* C82, C83 attributes of the root and placeholder data → `save_ok` gives the root group after all entries; the attributes are computed from `rootAttributes`, with `UserIn` (Props/FileAttrs) as independent specification of the user; `EntryOf.noData` (Lemmas/SaveLoop) says what `closeEntry` wrote for a scan without data writer.
* C84 XPCS parameters → the writers of `#VA`, `#VD`, `#VE` are registered by the header only (`Writers`), run once into the fresh name (`EntryOf.slots`), and the group is the fold of the puts of its dictionary (`dict_shown`).
* C85 geometry arrays → `slotted_geometry` (Lemmas/SlotGeo): the group `G` is written by the first part of the geometry writer, and the rest of that writer (`geoRest`) does not touch it (`conf_geoRest`).
* C86 diffractometer → one zone (`zoned_geometry`, Lemmas/ZoneSample) for the writers of the geometry and of the temperature: the names they own in the entry and in the group `instrument`, and the nodes below `sample` (`SamIn`, Lemmas/ZoneGeo); the rest of the writers keep the zone (`zone_run`), `geo_last` follows what save_scan adds at the end; read back with `sam_read`.
* C87 temperature → the same zone: `SpAt` for the two datasets, `LogAt` for the links in `sample/temperature`.
* C88 nothing else → a zone with no writers (`zoned_other`): the names outside the two lists are protected and stay absent through all writers and additions (`EntryOf.zonesTo`); `experiment_description` by `conf_saveScanRest` in a scope that protects its node.
* C89 saving does not raise → totality: the hypotheses of `Spec/Total.lean` (`CanWrite` per writer, `CanSave` per scan, `CanSaveAll` along the list) carry an invariant of the file through all writers (`Lemmas/Live*.lean`: where each path leads, which names are free, what the groups instrument, sample and data are), so that no call of h5py or of a number conversion fails (for UXML documents by induction over the elements: room for each name, paths to the objects with an id, Lemmas/LiveUxml).
* C90, C91 end to end → invariant of the loop of `save` (`Lemmas/SaveCame.lean`): every scan of the file object is as it was opened, or what `interpret` makes of its text with the header of the file (up to what other scans set there: date, epoch and #O names); with C70 (opening leaves the scans alone, the opened file is `Savable`) this composes the properties of the interpretation (C17, C21–C30, C67) with those of the written file (C41–C44, C74–C79).
* C92 interpretation does not raise → `Spec/Fits.lean` states when a scan fits; an invariant of the loop over the lines (`Lemmas/Fits.lean`: `LineInv`) makes each handler total, then each post-processor is total from what the lines left (`Lemmas/FitsPost.lean`, `FitsGeo.lean`) and no post-processor spoils the conditions of another (`post_keep`); `C92_needed` shows scans that violate one condition each and raise.
* C93, C94 opening a file and reading its scans do not raise → `Spec/Opens.lean` states when the sections of a file fit; an invariant of the loop over the sections (`FileInv`: the headers hold what their texts state, `HeaderSays`, every scan is fresh and dated) makes each section total (`Props/Opens.lean`); reads keep an invariant of the file (`ReadInv`) in which a scan is either fresh or already interpreted and the headers still say what their texts state (`Props/OpensRead.lean`). `C93_needed` shows files that violate one condition each and cannot be opened.
* C95 a well-formed file can be converted → `Spec/Saves.lean` states, over the lines of headers and scans, what must hold in addition to C93/C92; `Lemmas/Saves.lean` derives the conditions of C89 (on the interpreted objects) from it: what each line kind stores comes from lines of the text (`Lemmas/Stored.lean`), which writers are registered comes from the kinds of lines (`Lemmas/Regs.lean`); `Props/Saves.lean` keeps an invariant of the file (`SaveInv`) while the scans are saved one after the other. `C95_needed` shows texts that violate one condition each and cannot be saved. Meshes are covered too (`MeshSaves`; a mesh can be saved once only, so no mesh may be asked for twice: after its save the invariant says nothing of it); `C95_mesh_needed` shows that each condition on them is needed.
* C96 further lines end to end → the same composition as C90/C91 (`arrived`), for #S, #D, #V, #@…, #G, #MD and #X lines; `Spec/SetPoint.lean` states the three forms of #X lines, independently of the scanf formats, and `Props/ArriveTemp.lean` proves that the scanner reads them. `Props/ArriveMoreDemo.lean` has a file that meets the hypotheses.
* C97 the lines of a header → `Spec/Headers.lean` states what the attributes of a header are, given its text; `C97_headers` proves it for all headers of a file that was opened (induction over its sections, with the invariant of `Props/Untouched.lean`), and the other theorems compose it with C75, C82, C91. Not covered: #D lines and #@… lines of headers.
* C98 the diffractometer end to end → `Spec/GeometryText.lean` states which variant of the catalog belongs to the texts of a header and a scan (`GeometryIs`), and what the entry has, given the numbers of the #G lines (`FromText`); `Props/GeoText.lean` proves that the matching finds it (other motors of a variant never matter, `C63_others`, a fact about the packaged catalog), `Props/ArriveGeo.lean` composes it with C64 and C86. `Props/ArriveGeoDemo.lean` has a file that meets the hypotheses.
* C99 the lines of plug-ins end to end → `Spec/Plugins.lean` states what the text of a header says in #VA/#VD/#VE, #MD, #UXML, #X and #@ lines (`HeaderPlugins`); `Props/ArrivePlug.lean` proves it of every header of an opened file (`C99_headers`: folds over the lines of a header, post-processors keep these attributes, the XML post-processor runs exactly if there is a #UXML line) and composes it with C75, C78, C81, C84 and C87.
* C100 the reports on the diffractometer → `Model/DiffPrint.lean` (the writing of floats, arrays and dates is a parameter, `Texts`); `Spec/Report.lean` states the lines; `Props/Report.lean` computes the dictionary of items (fresh keys are appended, repeated ones keep their place) from the parsed parameters (C64) and the text of the scan; `Props/ReportDemo.lean` shows all three reports of a scan.
* C101 the text of the index page → `Model/GalleryPage.lean` (`buildIndexHtml`, `href_format`; the facts about the machine are parameters); `Spec/GalleryPage.lean` has a small reader of the page (`readLink`, `readProblem`, `readHeading`); `Props/GalleryPage.lean` shows that the text is a list of lines and reads it back, and combines this with C72.
* C102 the gallery command → `main` and the list of files in `Model/GalleryPage.lean`; `Props/GalleryMain.lean` extends the steps of C51/C73 to lists of files: a file is settled after its run, stays so in the runs for other files (gallery directories are not inside each other), and a run for a settled file is the identity.
* C103 loading of plugins → `Model/PluginLoad.lean` (`install_user_plugin`, the loop over the listing, `get_control_key` over the registered dictionary; a file is the list of its classes and whether it raises); `Spec/PluginLoad.lean` says what a listing of the package is; `Props/PluginLoad.lean` shows that the registered handlers are a permutation of the packaged ones, which is the hypothesis `reg.Perm HKey.all` of the other theorems.
* C104 what plots draw → `Model/Charts.lean` (`make_png`, `shift_to_pixel_boundaries`, `xy_plot` as far as the values given to matplotlib; exact rationals; the logarithm is a parameter); `Spec/Charts.lean`; `Props/Charts.lean` proves the pixels, the values and the log scale for all images, and combines this with C55/C56.
* C105 the specplot command → `Model/SpecplotMain.lean` (`main` over the models of opening, `getScan`, `Selector`, `plot_scan` and drawing; argparse is not modelled; an image is written in one step); `Props/SpecplotMain.lean` by cases of the run, with C54, C70, C104.
* C106 a conversion that fails → `Model/Writer` (`save` returns the file also if an exception is raised), `Spec/LeftBehind`; `Props/LeftBehind.lean`: the confinement lemmas of C40 hold whatever the outcome of a writer is, so the pass that raises changes nothing outside its own entry; induction over the list.
* C107 the entry of a scan does not depend on the other scans saved with it → `Model/Writer`, `Spec/Alone`; `Lemmas/Par.lean` relates two runs of every HDF5 operation on files in which the same nodes lie behind different ones, `Lemmas/WriterPar.lean` carries this through every writer; `Props/Alone.lean`: the data file object is followed along the loop (`Still`), so that the pass for a scan meets the same scan in both saves.
* C108 sections at the end of a data file do not change the entries of the scans before them → `Model/SpecFile`, `Model/Writer`, `Spec/Alone`; `Props/Grown.lean`: reading one more section keeps every scan and every dated header (`Kept`, `kept_loop`), and every scan has a dated header as soon as the file opens (`C108_dated`); then `C107` for both files.
* C109 plots, extracted text and the NeXus file agree on the data of a scan → `Model/Plot`, `Model/Cli`, `Model/Writer`, `Spec/Agree`; `Props/Determined.lean` (the text of a scan determines its labels, names and rows, `C21_determined`), `Props/Agree.lean` (C41, C55, C62 and C90 about the same table), `Props/AgreeDemo.lean`.
* C110 what was done with an open data file before does not show in what is saved or read → `Model/SpecFile`, `Model/Writer`, `Spec/History` (the histories); `Props/History.lean`: the history only replaces scans by what their interpretation gives (`Past`, by induction over the history and the loop of `save`), and two file objects whose scans give the same when they are read save the same (`Like`); `Props/HistoryDemo.lean`.
* C111 `refresh()` leaves the scans that were read before as they are → `Model/SpecFile`; `Props/Stay.lean`: each section keeps a scan that is neither the last in the dictionary nor named by `last_scan` (`Mid`, `Rests`), and headers with a date (`Heads`), by induction over the sections; the entry by comparing the two saves step by step (`saveKey_par`).
* C112 one catalog of diffractometer geometries, whose answers have no history → `Model/Catalog.lean` (the module variable, the objects made so far with their cached lists; an object is its number; the content of the dictionary file at each reading is a parameter); `Props/Catalog.lean`: each call keeps contents and correct caches (`Step`), by induction over the sequence of calls; `match` refines the pure `geoMatch` of C64 and C98.
* C113 a plotter that is used again → `Model/PlotAgain.lean` (`plot_scan` on an object in any state; what stays in it), `Props/PlotAgain.lean`: two objects in any two states, the same scan: the same curve (`plotOn_line`); `C113_new` ties the model to the `plotScan` of C55 and C56. `Props/PlotMesh.lean`: the same for meshes by a relation of two runs that agree at the labels of the scan (`Twin`), and the stale image in general (`C113_mesh_stale`). The defects are also shown on examples.
* C114 line plots do not show in what is saved or plotted afterwards → `Spec/Plotted.lean` (histories with plots; `plotIn` puts the scan that was plotted back in its file), `Props/Plotted.lean`: a line plot leaves the file as the reading of an attribute does (`plotIn_access`), so that the history is one of C110; the curve by `plotOn_read`.
* C115 the eznx example file → `Model/Example.lean` (the script, its data replaced by any text; `zip(*rows)` word by word), `Spec/Example.lean`, `Props/Example.lean`: the columns by induction on the rows, the file by computation with the two columns as variables, the sharing by C39.
* C46, C78 UXML → induction over the document (walk), then over the links; tree of an element is the tree of the HDF5 groups (`Lemmas/Uxml*`, `Tree`). C46 partial: two links to one id (`C46_two_links`).
* C47–C49 `scanf.py` → the cache as a state machine; conversions over a backtracking matcher (`Py/Regex`). C49 partial: `int(x, 7)`.
* C50–C53, C71–C73 `specplot_gallery.py` → decision logic, frame of the run, every crash point.
* C54–C56 `specplot.py` → selector histories; data handed to the charts.
* C57–C59 `nexus.py`, C60–C62, C77 `extractSpecScan.py` → command line functions over a file system with aliased names. C61 partial: two names collide.
* C63, C64 `diffractometers.py` → finite catalogue (generated table) for all scans. C63 partial: dotted names.

No property of the list is left out as inexpressible. Rendering of pictures, the
bytes of an HDF5 file, and timing are not stated as properties because they are
outside the model (section 4).

## 3. Trusted base

1. Lean 4.33.0's kernel. `decide +kernel` is used for closed examples (checked by the kernel); no `native_decide`, no `bv_decide`, no added axiom.
2. Axioms: at most `propext`, `Classical.choice`, `Quot.sound`. `AXIOMS.md` lists the axioms of each theorem of `MANIFEST.json` (made by `tools/axioms.py` from `#print axioms`).
3. The reading of the Python code: the definitions in `Model/` and `Py/`. Each carries a citation; simplifications are stated there and below. The table in `Model/GeoTable.lean` was generated from `diffractometer-geometries.dict`.
4. The specifications in `Spec/` and the statements in `Props/`.

The files `Model/GeoTable.lean` (table) and `Lemmas/Frames.lean` (frame lemmas; `tools/gen_frames.py`) are generated and committed; the second is checked by the kernel like any other proof.

## 4. What is modelled

| source | model | left out |
|---|---|---|
| `utils.py` | `Model/Utils` | — |
| `control_lines.py`, `plugin_core.py`, `singletons.py` | `Model/Registry`, `Model/PluginLoad` | metaclass mechanics: registration is an explicit history; a plugin file is the list of its classes and whether importing it raises |
| `plugins/*.py` (all handlers: `process`, `postprocess`, `writer`) | `Model/Handlers`, `Model/Writer` | log messages |
| `spec.py` | `Model/SpecFile`, `Model/Handlers` | a float reference is given by its `repr`; permission errors; the file is a text, or a content that cannot be decoded |
| `eznx.py` | `Model/H5`, `Model/AsType` | `astype` other than `float`, `makeExternalLink`, dtype details |
| `writer.py` | `Model/Writer` | h5py itself |
| `scanf.py` | `Model/Scanf` | — |
| `diffractometers.py` | `Model/Diffractometers`, `Model/DiffPrint`, `Model/Catalog`, `Model/GeoTable` | the text of floats, arrays and dates is a parameter; writing of the parsed geometry is in `Model/Writer` |
| `nexus.py`, `extractSpecScan.py` | `Model/Cli` | argparse (the parsed options are the input); console colours |
| `specplot.py`, `charts.py` | `Model/Plot`, `Model/PlotAgain`, `Model/Charts`, `Model/SpecplotMain` | matplotlib itself (what is given to it is modelled), colours, sizes, time stamps |
| `specplot_gallery.py` | `Model/Gallery`, `Model/GalleryPage` (text of the page, main) | argparse's parsing, logging; JSON as a structured value; needToMakePlot (never called) |
| `eznx_example.py` | `Model/Example` | the name of the file |
| versioneer | — | not modelled |

## 5. Simplifications (each is repeated at its definition)

* **Floats.** A float is `nan`, `±inf` or an exact rational: no binary64 rounding, no −0.0, no overflow of huge literals. `str(float)` is an arbitrary function (`show_`); theorems hold for every choice.
* **Text.** Non-ASCII decimal digits in `int()`, `float()`, `\d` are treated as non-digits. `\w`, `isdigit` outside ASCII come from `UniDB` (arbitrary). Universal newlines are applied when the file is read.
* **Time.** `fromtimestamp`, `mktime` are parameters of `Env`; strptime is modelled for the formats the code uses; "now" is fixed during a gallery run.
* **XML.** The parser and the schema validator are functions of `Env` (`xmlParse`, `xmlValid`); comments and processing instructions are elements with a tag outside the schema.
* **HDF5.** A file is a heap of nodes: groups with ordered, named hard links and attributes; datasets with text, a scalar or an n-dimensional array, and attributes. Creating, linking, deleting, walking of paths (`/`-separated, absolute from the root, `.` ignored) and the errors h5py raises on existing or missing names are modelled; file locking, chunking, dtype conversion and non-hard links are not. `makeDataset` of text drops non-ASCII characters as the code does.
* **numpy.** Only shapes and orders of elements (`reshape`, `array` of rows); no dtype.
* **Files.** `Fs.real` maps names to real files, so that two names may be one file; a file is created empty and then filled; a killed run stops between two such steps. Failure to draw a picture leaves no file.
* **Plot makers.** Classes of the user are arbitrary only in selection (C54); their own methods raise NotImplementedError as those of the base class.
* **Concurrency.** The code has no threads. Interference is by the outside world changing the file between (C06, C07) or during (C65) accesses and by kills (C51).

Conditions that occur in several theorems:

* `Savable` (Spec/Save.lean): the file is opened normally; scan names are as the file gives them; no mnemonic or label that becomes an HDF5 name is an absolute path; and `Writers`: the table `h5writers` of an object lists a writer exactly for the attributes it has. `Writers` is *proved* to be kept by every handler and to hold of every freshly opened file (`Lemmas/Writers.lean`), so it is an invariant and not an assumption on inputs.
* `Safe` growth (C06, Spec/File.lean): text is only appended, after a complete line; the last section was a scan, the latest by date, with at least six lines (or the new text starts a section); no two scans have the same control lines among their first five lines.

## 6. Where the code disagrees with its documentation (all proved, unless marked *)

* Reading: growth that refresh() misreads (C06_*); lost update if the file changes during read (C65_lost_update); a `#P` line in a header makes read() interpret the latest scan (C70_positions_in_header); a header repeated with the same epoch is ignored (C05_repeated_header_ignored); a scan without `#D`* or with a white line before it* stops the whole read. One bad section makes the whole file unreadable: an indented or white-space-only line in a header, a scan without #D, a line of white space before the #D of a scan, #o without #O, #S followed by a tab, and #G in a header each make opening raise (C93_needed).
* Access: `sdf[a:]` omits the last scan (C12_no_upper_bound); relative slices of a file without scans raise IndexError (C13_no_scans); `getScan("0.1")` raises ValueError (C11_fraction). `getScan(1.0)` does not find scan 1 (C11_float_whole), `getScan(1.10)` finds scan 1.1 (C11_float_tenth), `sdf[-1.0]` raises TypeError (C14_float). `sdf["2":]` raises TypeError (C12_single_text), and so do negative bounds given as float or text (C13_no_position).
* Interpretation: failure leaves a half-interpreted scan that is not interpreted again (C19_failure); `column_last` keeps the name from before duplicate labels are renamed (C55_duplicate); without data lines labels are not renamed (C21_no_data); `@A` of a split row breaks the next data line (C25_*). A #N line with three numbers, a row with more words than labels, `_mca_` as label, a short #G1, a #V line without #H labels and a #j line without #J names each raise (C92_needed). `scanf("%x")` raises for the letters G–Z (C48_raises).
* Geometry catalog: after a failure to read the dictionary file `get_geometry_catalog()` returns 0 until a reset (C112_failed, C112_failed_match); a second catalog can be made directly after the first call (C112_second), although the message says not to.
* Plotters used again: titles of the first scan stay (C113_titles_stay); a mesh with the label of the mesh before is drawn with its image (C113_mesh_again); an hklscan at a constant point uses the axis of the scan before (C113_hkl_again).
* Plotting and writing: a mesh that was plotted as a mesh cannot be saved from the same open file (C114_mesh_matters): the plotter removes the labels of its axes from the scan; a plot of an hklscan replaces its first column, which changes the `axes` of the spectra saved afterwards (C114_hkl_matters).
* Writing: mesh stored with transposed shape (C42_transposed), and not savable twice (C42_second_save); UXML links to one id: only one is made (C46_two_links); `#j`/`#J`/`#MD` in header and scan both: save fails (C75_twice); the same scan listed twice: save fails (C40_refused); spectra without calibration get a constant axis (C43_uncalibrated); `#@ROI`, `#I`, and header comments and dates are never written*; a first comment that ends with "=" gives an empty SPEC_user (C82_example).
* Writing: a column of a mesh whose label starts with `/` is looked up from the root of the file, so a column labelled `/S1` is silently left out if scan 1 was saved before (C107_labels_matter); with `#O` lines in a scan, the positioners stored for another one depend on the order of saving (C107_O_lines_matter).
* Reading: a `#P` line in a header section after a scan is added to the positions of that scan (C108_P_lines_matter), because `#P` goes to the last scan that was read.
* Writer: for a scan in reciprocal space the texts of the command are compared, not the numbers: after `hklscan 1 1.0 0 0 1 2 …` the attribute `axes` names H, which is constant, besides L; specplot compares the data and plots against L (C109_hkl_differs).
* Writing: the regions of interest of `#@ROI` lines are never stored: `SPEC_MCA_RegionOfInterest.process` does not register its writer (C81_no_regions).
* Writing: a scan with `#X` set points but no `#G` lines makes save() raise KeyError (C87_without_geometry, C89_needed); so do more positioners than mnemonics (IndexError, C89_needed).
* scanf: `%o` reads base 7 (C49_false).
* Plots: unclean mesh labels are not plotted (C56_unclean_label); plotting changes the scan (C56_second_plot, C55_point_numbers); hkl scans with H, K constant and no L column (C55_no_L); aborted scans (C55_aborted). A mesh scan stopped when its first row was complete cannot be drawn (IndexError, C104_first_row); the zeros of a mesh that was not completed are not shown (C104_mesh); on an axis with unequal steps a point may be outside its pixel (C104_outside); with a log scale an image with one positive value is empty (C104_log_flat).
* Gallery: a change is noticed only if time *and* size differ (C50_missed); a kill leaves plots that are never made (C51_lost, C51_stuck, C51_empty_plot_kept, C51_never_again), an empty cache makes all later runs fail (C50_torn); wrong plots remade (C71_stale, C71_bytes); page lists a missing plot (C72_dangling); two files share a directory (C53_shared); a file without header stops the run (C53_stops); scans 01 and 1 share a plot (C52_collision); commands are not escaped in the page (C101_quote).
* Commands: `-s all` is refused (C57_all_refused); scans with fractions cannot be listed (C58); output names collide (C61_collision, C61_no_extension).
* Diffractometers: the variants fourc.picker, fourc.3axis and fourc.xtalogic, which need other motors, are never found, as an earlier variant of fourc always matches too (C63_others_never); dotted stated names (C63_false), short `#G1` rows (C64_short_G1), keys redefined (C64_G_redefined). `str()`, `print_brief()` and `print_all()` raise KeyError without a #G4 line of the right length (C100_no_numbers), `print_all()` AttributeError without #G3 (C100_no_matrix); for ten variants the number of motors reported is not that of the variant (C100_motors).
* Plugins: a missing plugin file is reported as FileExistsError (sic), one without the suffix .py as AttributeError; a plugin file that raises while it is imported leaves the handlers it had defined registered and its module in `sys.modules` (C103_half); a plugin file of the same name replaces the entry of an imported module in `sys.modules` (C103_installs).
* eznx: `read_nexus_group_fields` returns None instead of KeyError (C66_group); a link to an overwritten dataset keeps the old value (C38_old_link_keeps_old_value).

## 7. Testing the theorems against wrong programs

`seeded/LOG.jsonl`: each line is one realistic edit of a model definition made in a scratch copy (never in `/verif`), the claim it breaks, the theorems that then failed to build, and the theorems tightened because of it. Edits that first went unnoticed led to the theorems named in `theorems_tightened`; they were run again afterwards (`rerun` lines).

{"id": "C01", "title": "Sections partition the file", "statement": "SpecDataFile.dissect_file() returns sections that, joined by newlines, are exactly the file's lines from the first section-start line (first whitespace-delimited word is #E, #F or #S) to the end: nothing is lost, duplicated or reordered, every section begins with a section-start line and contains no other. On a readable text file the only failure is NotASpecDataFile, exactly when no line starts with '#S ' and the file has no standard four-line header.", "quantifier": "every file content (any text, any line endings, any number of lines)", "why_tests_cant": "the partition must hold for arbitrary text, including blank lines, odd whitespace and any number of sections; tests sample a handful of files", "anchors": [{"file": "spec2nexus/spec.py", "symbols": ["SpecDataFile.dissect_file", "SpecDataFile._read_file_"]}]}
{"id": "C02", "title": "SPEC file recognition", "statement": "is_spec_file_with_header(f) is True exactly when f is an existing regular file whose first four lines start with '#F ', '#E ', '#D ', '#C ' in that order; is_spec_file(f) is True exactly when that holds or some line starts with '#S '; constructing SpecDataFile(f) raises SpecDataFileNotFound for a missing file and NotASpecDataFile for an unrecognised one.", "quantifier": "every file content and file-system status", "why_tests_cant": "quantifies over all texts; tests check a few accepted and rejected files", "anchors": [{"file": "spec2nexus/spec.py", "symbols": ["is_spec_file", "is_spec_file_with_header", "SpecDataFile.__init__"]}]}
{"id": "C03", "title": "Every #S section becomes exactly one scan", "statement": "After reading a file, the scans (in insertion order) correspond one-to-one, in order, to the #S sections of the file: the k-th scan's raw text is the k-th #S section; the scan names are pairwise distinct.", "quantifier": "every sequence of sections for which the read completes", "why_tests_cant": "must hold for any number of scans and any repetition pattern of scan numbers", "anchors": [{"file": "spec2nexus/spec.py", "symbols": ["SpecDataFile.read"]}, {"file": "spec2nexus/plugins/spec_common.py", "symbols": ["SPEC_Scan.process"]}]}
{"id": "C04", "title": "Repeated scan numbers get the next free suffix", "statement": "When scan number n was already used k>0 times (numbers without a dot), the scan is named n.k; the first is named n; with dots in scan numbers the suffix is the first free one. DuplicateSpecScanNumber is never raised by a read, whatever the scan numbers are.", "quantifier": "every list of scan-number words", "why_tests_cant": "the suffix search interacts with every earlier name; only induction over the whole history settles it", "anchors": [{"file": "spec2nexus/plugins/spec_common.py", "symbols": ["SPEC_Scan.process"]}]}
{"id": "C05", "title": "Scans belong to the latest preceding header", "statement": "Each scan's header is the last new header section before it in the file: a header section equal to an earlier one (up to white space at its ends) is not new and does not become current again; a scan with no preceding header section gets a synthetic empty header, shared with later scans until a header section appears.", "quantifier": "every interleaving of header and scan sections", "why_tests_cant": "interleavings are unbounded", "anchors": [{"file": "spec2nexus/plugins/spec_common.py", "symbols": ["SPEC_Scan.process", "SPEC_Epoch.process"]}, {"file": "spec2nexus/spec.py", "symbols": ["SpecDataFile.read"]}]}
{"id": "C06", "title": "refresh() after append equals a fresh read", "statement": "If a file only grows by appending text, refresh() leaves the object with the same scans (names, order, raw text) as reading the grown file afresh.", "quantifier": "every initial content and every appended text; every history of refreshes", "why_tests_cant": "depends on every relation between old and new text; tests append one scan at most", "anchors": [{"file": "spec2nexus/spec.py", "symbols": ["SpecDataFile.refresh", "SpecDataFile.read"]}, {"file": "spec2nexus/plugins/spec_common.py", "symbols": ["SPEC_Scan.process"]}]}
{"id": "C07", "title": "update_available / refresh decision", "statement": "update_available is False exactly when both the modification time and size equal those recorded at the end of the last read; refresh() returns None and changes nothing when no update is available, otherwise it returns the previous last_scan.", "quantifier": "every recorded and current (mtime,size)", "why_tests_cant": "quantifies over all states of the file system", "anchors": [{"file": "spec2nexus/spec.py", "symbols": ["SpecDataFile.update_available", "SpecDataFile.refresh"]}]}
{"id": "C08", "title": "getScanNumbers is the sorted list of all scan names", "statement": "getScanNumbers() is a permutation of the scan names, sorted ascending by numeric value (integer value when all are integers, float value otherwise), with equal values kept in file order; it raises ValueError exactly when some name is not a number.", "quantifier": "every collection of scan names", "why_tests_cant": "sorting with fallback key over arbitrary names", "anchors": [{"file": "spec2nexus/spec.py", "symbols": ["SpecDataFile.getScanNumbers"]}]}
{"id": "C09", "title": "Chronological order", "statement": "getScanNumbersChronological() lists every scan once, ordered by date, scans with equal date in file order; it is the file order when dates never decrease.", "quantifier": "every collection of scans and dates", "why_tests_cant": "stability and permutation hold for all lists only by proof", "anchors": [{"file": "spec2nexus/spec.py", "symbols": ["SpecDataFile.getScanNumbersChronological"]}]}
{"id": "C10", "title": "first/last/min/max scan numbers", "statement": "getMinScanNumber/getMaxScanNumber return a scan name with least/greatest numeric value and getFirstScanNumber/getLastScanNumber one with earliest/latest date; each returns 0 exactly when there are no scans.", "quantifier": "every collection of scans", "why_tests_cant": "extremality quantifies over all scans", "anchors": [{"file": "spec2nexus/spec.py", "symbols": ["SpecDataFile.getMinScanNumber", "SpecDataFile.getMaxScanNumber", "SpecDataFile.getFirstScanNumber", "SpecDataFile.getLastScanNumber"]}]}
{"id": "C11", "title": "getScan addressing", "statement": "getScan(n) for a positive number n (int, str or float) returns the scan of exactly that name or None; for n<1 integers it returns the scan at that position of getScanNumbers() (0 = lowest, -1 = highest), None when there are no scans, IndexError out of range; a float below 1 is the position it has without its fraction. A float refers to the scan that its repr names: so getScan(1.0) finds no scan in a file without points in its scan numbers, and no float finds the tenth repetition 1.10 of a scan.", "quantifier": "every argument (int, str, float) and every collection of scans", "why_tests_cant": "all relative positions and names", "anchors": [{"file": "spec2nexus/spec.py", "symbols": ["SpecDataFile.getScan"]}]}
{"id": "C12", "title": "Slicing by absolute scan numbers", "statement": "sdf[a:b] with positive a,b (int, float or str) returns, in chronological order, exactly the scans whose number x satisfies a <= x < b; with a step w >= 0 only those whose repeat-occurrence is w, with a step -w the w-th last of the selected occurrences; mixed signs raise IndexError, a str that is no number raises ValueError. Without upper bound the range ends before the chronologically last scan (which is never part of it); without lower bound it begins at the chronologically first one; a bound 0 beside a positive one is as if omitted; a str as the only bound raises TypeError.", "quantifier": "every a, b, step (int, float, str or omitted) and collection of scans", "why_tests_cant": "range membership for all numbers", "anchors": [{"file": "spec2nexus/spec.py", "symbols": ["SpecDataFile.__getitem__"]}, {"file": "spec2nexus/utils.py", "symbols": ["split_scan_number_string"]}]}
{"id": "C13", "title": "Slicing by relative position", "statement": "sdf[a:b] with both negative (or omitted) integer bounds equals Python list slicing of the chronological list, with a step as for absolute bounds; sdf[:] returns every scan; negative floats or strs as bounds raise TypeError.", "quantifier": "every negative a, b, every step and collection of scans", "why_tests_cant": "all list lengths and offsets", "anchors": [{"file": "spec2nexus/spec.py", "symbols": ["SpecDataFile.__getitem__"]}]}
{"id": "C14", "title": "Indexing by tuple", "statement": "sdf[i,j,...] is the concatenation of sdf[i], sdf[j], ... in the given order, wrapping single scans; a single non-negative int or float, or a str, is the scan number itself as in getScan; a negative float is a TypeError.", "quantifier": "every tuple of indices", "why_tests_cant": "arbitrary tuples", "anchors": [{"file": "spec2nexus/spec.py", "symbols": ["SpecDataFile.__getitem__"]}]}
{"id": "C15", "title": "getScanCommands", "statement": "getScanCommands() returns, in getScanNumbers order, '#S <name> <command>' for every scan; with an explicit list only the listed, existing scans in the given order.", "quantifier": "every collection of scans and list", "why_tests_cant": "arbitrary lists", "anchors": [{"file": "spec2nexus/spec.py", "symbols": ["SpecDataFile.getScanCommands"]}]}
{"id": "C16", "title": "Control-line dispatch is unambiguous", "statement": "For the packaged plugins every first word is matched by at most one handler (other than the internal literal keys), so the handler chosen for a line does not depend on the order in which plugin files are loaded.", "quantifier": "every first word and every permutation of plugin load order", "why_tests_cant": "the set of words is infinite; import order depends on the file system", "anchors": [{"file": "spec2nexus/control_lines.py", "symbols": ["ControlLines.get_control_key", "ControlLines.match_control_key"]}, {"file": "spec2nexus/plugin_core.py", "symbols": ["ControlLineBase.match_key"]}, {"file": "spec2nexus/plugins/spec_common.py", "symbols": ["SPEC_DataLine.match_key"]}]}
{"id": "C17", "title": "Unrecognized lines are preserved verbatim", "statement": "Each non-blank line of a scan that no handler recognises is kept verbatim, in file order, in scan._unrecognized; the other lines are not.", "quantifier": "every scan text", "why_tests_cant": "arbitrary text lines", "anchors": [{"file": "spec2nexus/control_lines.py", "symbols": ["ControlLines.get_control_key"]}, {"file": "spec2nexus/plugins/fallback.py", "symbols": ["UnrecognizedControlLine"]}, {"file": "spec2nexus/spec.py", "symbols": ["SpecDataFileScan.interpret"]}]}
{"id": "C18", "title": "Plugin registration", "statement": "After any sequence of plugin registrations each key maps to the most recently registered handler, each key appears once, and the lazy attributes are exactly the union of those declared, without duplicates.", "quantifier": "every sequence of registrations", "why_tests_cant": "arbitrary histories", "anchors": [{"file": "spec2nexus/plugin_core.py", "symbols": ["PluginMounter._enroll"]}]}
{"id": "C19", "title": "Interpretation happens once and lazily", "statement": "Accessing any lazy attribute interprets the scan at most once successfully; after a successful interpretation further accesses or calls to interpret() change nothing; the result is the same whichever lazy attribute is accessed first.", "quantifier": "every scan text and every history of attribute accesses", "why_tests_cant": "arbitrary access histories", "anchors": [{"file": "spec2nexus/spec.py", "symbols": ["SpecDataFileScan.interpret", "SpecDataFileScan.__getattribute__"]}]}
{"id": "C20", "title": "Interpretation order of scans does not matter", "statement": "If no scan text has #O lines, interpreting a collection of scans that share a header in any order gives the same result for each scan.", "quantifier": "every set of scans and every order of access", "why_tests_cant": "permutations of unbounded length", "anchors": [{"file": "spec2nexus/spec.py", "symbols": ["SpecDataFileScan.interpret"]}, {"file": "spec2nexus/plugins/spec_common.py", "symbols": ["SPEC_PositionerNames.process", "SPEC_Positioners.postprocess"]}]}
{"id": "C21", "title": "Data columns are rectangular and ordered", "statement": "After interpretation every column of scan.data (other than the MCA one) has the same length; row i of the table is the i-th complete, all-numeric data line; lines with too few or non-numeric values are dropped.", "quantifier": "every scan text with labels and data lines", "why_tests_cant": "arbitrary data", "anchors": [{"file": "spec2nexus/plugins/spec_common.py", "symbols": ["data_lines_postprocessing"]}, {"file": "spec2nexus/spec.py", "symbols": ["SpecDataFileScan._interpret_data_row"]}]}
{"id": "C22", "title": "Column labels become unique without loss", "statement": "After interpretation of a scan with data lines the labels scan.L are pairwise distinct, as many as before; one after the other, each becomes the first of label, label_1, label_2, ... that no label before it has (so distinct labels are unchanged), and scan.data has exactly those keys in order.", "quantifier": "every list of labels (fewer than 1000 copies of a label)", "why_tests_cant": "collisions between generated and given names need all lists", "anchors": [{"file": "spec2nexus/spec.py", "symbols": ["SpecDataFileScan._unique_key"]}, {"file": "spec2nexus/plugins/spec_common.py", "symbols": ["data_lines_postprocessing"]}]}
{"id": "C23", "title": "Comments between data lines do not change the data", "statement": "Inserting or removing #C lines anywhere in a scan text after its first line leaves data, labels, positioners and all other content unchanged except comments.", "quantifier": "every scan text and every insertion point", "why_tests_cant": "arbitrary positions", "anchors": [{"file": "spec2nexus/plugins/spec_common.py", "symbols": ["SPEC_Comment.process", "SPEC_DataLine.process"]}, {"file": "spec2nexus/spec.py", "symbols": ["SpecDataFileScan.interpret"]}]}
{"id": "C24", "title": "MCA spectra are kept in order", "statement": "Every @A<id> line contributes exactly one spectrum, appended in file order to data['_mca_']['mca<id>'], with exactly the numbers on the line; backslash-continued lines are joined.", "quantifier": "every scan text with MCA lines", "why_tests_cant": "arbitrary spectra and interleavings", "anchors": [{"file": "spec2nexus/plugins/spec_common.py", "symbols": ["data_lines_postprocessing", "SPEC_MCA_Array"]}, {"file": "spec2nexus/spec.py", "symbols": ["SpecDataFileScan.interpret"]}]}
{"id": "C25", "title": "Split data rows are recombined", "statement": "With #N N M, lines which together hold N values are combined into rows of exactly N values in order, preserving all the values; with a single #N value the lines are unchanged.", "quantifier": "every list of data lines whose value counts add up to rows of N", "why_tests_cant": "arbitrary chunking", "anchors": [{"file": "spec2nexus/plugins/spec_common.py", "symbols": ["combine_split_NM_lines"]}]}
{"id": "C26", "title": "Positioners pair names with values", "statement": "After interpretation scan.positioner maps the name at row r, column c of the #O lines to the value at row r, column c of the #P lines, for all positions present in both; values without a name are reported in interpreter comments and no name gets a value from another position.", "quantifier": "every #O/#P table", "why_tests_cant": "arbitrary ragged tables, repeated names", "anchors": [{"file": "spec2nexus/plugins/spec_common.py", "symbols": ["SPEC_Positioners.postprocess", "SPEC_PositionerNames.process"]}]}
{"id": "C27", "title": "UNICAT metadata pairs #H labels with #V values", "statement": "scan.metadata pairs label at row r, column c of #H with the value at row r, column c of #V for all positions present in both, numbers where possible; excess values are reported.", "quantifier": "every #H/#V table", "why_tests_cant": "arbitrary ragged tables", "anchors": [{"file": "spec2nexus/plugins/unicat.py", "symbols": ["UNICAT_MetadataMnemonics", "UNICAT_MetadataValues.postprocess"]}]}
{"id": "C28", "title": "Count time and monitor lines", "statement": "For '#T <value>  (<name>)' (resp. #M) scan.T is the text of value and time_name the name without its parentheses.", "quantifier": "every value word and name", "why_tests_cant": "arbitrary words", "anchors": [{"file": "spec2nexus/plugins/spec_common.py", "symbols": ["SPEC_CountTime.process", "SPEC_Monitor.process"]}]}
{"id": "C29", "title": "Geometry lines", "statement": "scan.G maps each G<n> word to the stripped remainder of the last #G<n> line, keys in order of first appearance.", "quantifier": "every sequence of #G lines", "why_tests_cant": "arbitrary sequences", "anchors": [{"file": "spec2nexus/plugins/spec_common.py", "symbols": ["SPEC_Geometry.process"]}]}
{"id": "C30", "title": "Comments and user lines accumulate in order", "statement": "scan.comments is the list of the contents of all #C lines in order; likewise R for #R, U for #U; #MD entries accumulate as key/value pairs with the last value winning.", "quantifier": "every sequence of such lines", "why_tests_cant": "arbitrary sequences", "anchors": [{"file": "spec2nexus/plugins/spec_common.py", "symbols": ["SPEC_Comment.process", "SPEC_UserResults.process", "SPEC_UserReserved.process"]}, {"file": "spec2nexus/plugins/apstools_specwriter.py", "symbols": ["MD_apstools"]}]}
{"id": "C31", "title": "Mnemonic cross references", "statement": "header.positioner_xref (resp. counter_xref) maps each #o (#j) mnemonic at row r, column c to the #O (#J) name at the same place; a missing name raises IndexError rather than mispairing.", "quantifier": "every table of names and mnemonics", "why_tests_cant": "arbitrary ragged tables", "anchors": [{"file": "spec2nexus/plugins/spec_common.py", "symbols": ["positioner_xref_postprocessing", "counter_xref_postprocessing"]}]}
{"id": "C32", "title": "clean_name gives valid NeXus names", "statement": "clean_name(s) for non-empty s consists of word characters only, does not start with a digit, is the identity on valid names and idempotent, has length len(s) or len(s)+1; it raises IndexError only for the empty string.", "quantifier": "every string", "why_tests_cant": "infinite domain", "anchors": [{"file": "spec2nexus/utils.py", "symbols": ["clean_name"]}]}
{"id": "C33", "title": "strip_first_word", "statement": "strip_first_word(line) is the stripped text after the first space; for 'w t' with w free of spaces it is t.strip(); it never contains leading or trailing whitespace.", "quantifier": "every string", "why_tests_cant": "infinite domain", "anchors": [{"file": "spec2nexus/utils.py", "symbols": ["strip_first_word"]}]}
{"id": "C34", "title": "split_column_labels inverts joining", "statement": "split_column_labels of labels joined by two or more spaces (or a tab) returns exactly the labels, for labels that contain no double space or tab and do not begin or end with a space; no returned label contains a double space.", "quantifier": "every list of labels", "why_tests_cant": "infinite domain", "anchors": [{"file": "spec2nexus/utils.py", "symbols": ["split_column_labels"]}]}
{"id": "C35", "title": "split_scan_number_string inverts scan names", "statement": "split_scan_number_string('n') = (n,0) and split_scan_number_string('n.k') = (n,k) for all natural n,k, so distinct (n,k) with k>0 give distinct names.", "quantifier": "all natural numbers", "why_tests_cant": "infinite domain", "anchors": [{"file": "spec2nexus/utils.py", "symbols": ["split_scan_number_string"]}]}
{"id": "C36", "title": "reshape_data", "statement": "reshape_data(data, shape) has exactly prod(shape) values: the given ones in order, truncated or padded with NaN; reshaping is row-major.", "quantifier": "every data length and shape", "why_tests_cant": "all sizes", "anchors": [{"file": "spec2nexus/utils.py", "symbols": ["reshape_data"]}]}
{"id": "C37", "title": "iso8601 dates", "statement": "iso8601 of a SPEC-format date is YYYY-MM-DDTHH:MM:SS of the same date and time; the SPOCK format is tried only if the SPEC format fails; other strings raise ValueError.", "quantifier": "every date string", "why_tests_cant": "large domain of dates and strings", "anchors": [{"file": "spec2nexus/utils.py", "symbols": ["iso8601"]}]}
{"id": "C38", "title": "eznx open/make semantics", "statement": "addAttributes, openGroup, makeGroup and write_dataset change only the named thing: attributes are added without removing others; openGroup returns the existing object of that name with its contents unchanged or creates an empty group of the class; makeGroup of an existing name fails without a change; write_dataset always leaves exactly the given value and attributes under the name and no other child or object is changed. (A dataset that is written again is a new object: links to the old one keep the old value.)", "quantifier": "every HDF5 tree and name", "why_tests_cant": "arbitrary trees and histories", "anchors": [{"file": "spec2nexus/eznx.py", "symbols": ["openGroup", "makeGroup", "write_dataset", "makeDataset", "addAttributes"]}]}
{"id": "C39", "title": "eznx hard links share the object", "statement": "After makeLink the new path and the old path denote the same object, whose 'target' attribute is its original path (unless it had one); nothing else changes, and the two paths stay paths of one object through every later history of making and opening groups, making datasets, setting attributes and making links.", "quantifier": "every tree and later history of writes", "why_tests_cant": "aliasing histories are unbounded", "anchors": [{"file": "spec2nexus/eznx.py", "symbols": ["makeLink"]}]}
{"id": "C40", "title": "Writer.save writes one entry per requested scan", "statement": "Writer.save(file, [n1,...]) with distinct existing scan numbers creates exactly one NXentry group S<ni> per scan, in order, each with a data group, and root attribute default naming the first.", "quantifier": "every list of scans", "why_tests_cant": "arbitrary lists and scan contents", "anchors": [{"file": "spec2nexus/writer.py", "symbols": ["Writer.save", "Writer.save_scan", "Writer.root_attributes"]}]}
{"id": "C41", "title": "Scan columns are stored losslessly", "statement": "For an ordinary scan each column of scan.data is stored under its cleaned name with exactly its values; signal names the last column and axes the first.", "quantifier": "every table of columns whose cleaned names are distinct", "why_tests_cant": "arbitrary tables", "anchors": [{"file": "spec2nexus/writer.py", "symbols": ["Writer.save_data", "Writer.oneD", "Writer.write_ds"]}]}
{"id": "C42", "title": "Mesh data are stored with the mesh shape", "statement": "For mesh scans the column data are reshaped without loss so that element (i,j) is the observation at axis positions i, j. (False of the code: the shape is transposed. What does hold: the axes, the shape, the order of the values and the padding with NaN, and the names in signal and axes.)", "quantifier": "every mesh size", "why_tests_cant": "all sizes", "anchors": [{"file": "spec2nexus/writer.py", "symbols": ["Writer.mesh"]}, {"file": "spec2nexus/utils.py", "symbols": ["reshape_data"]}]}
{"id": "C43", "title": "MCA calibration", "statement": "With a non-zero #@CALIB a b c the stored channel axis is a + b k + c k^2 for channel k=1..n; without calibration, or with zeros, it is 1 for every channel. The spectra are stored with all their values, one row for each, and the channel numbers 1..n beside them.", "quantifier": "all coefficients and spectrum lengths", "why_tests_cant": "infinite domain", "anchors": [{"file": "spec2nexus/writer.py", "symbols": ["Writer.mca_spectra"]}]}
{"id": "C44", "title": "User and unrecognized lines are kept in the entry", "statement": "After a successful save, the #R lines of the header and of the scan are the text datasets header_1, header_2, ... and item_1, item_2, ... of the group UserResults of the entry, in this order, each with a description that has its number, and nothing else is in the group; likewise #U in UserReserved. Lines that nothing recognized are u0, u1, ... of unrecognized_1 (those of the header, if it has any) and of the next unrecognized_i (those of the scan). Without such lines there are no such groups.", "quantifier": "every file, every scan saved, any number of lines", "why_tests_cant": "arbitrary numbers of lines in header and scan, with all other writers working in the same entry", "anchors": [{"file": "spec2nexus/plugins/spec_common.py", "symbols": ["SPEC_UserResults.writer", "SPEC_UserReserved.writer"]}, {"file": "spec2nexus/plugins/fallback.py", "symbols": ["UnrecognizedControlLine.writer"]}]}
{"id": "C45", "title": "hkl scans choose the moving axis", "statement": "For hscan, kscan, lscan and hklscan the axes attribute of the data group is the list of those of H, K, L whose start and end differ in the scan command (the empty text when none differs).", "quantifier": "every table", "why_tests_cant": "arbitrary data", "anchors": [{"file": "spec2nexus/writer.py", "symbols": ["Writer.hklscan"]}]}
{"id": "C46", "title": "UXML hard links", "statement": "After a successful save, every hardlink element of a UXML document whose target_id is the unique_id of a dataset or group element is, at its place below the group UXML of the entry, a link to the object of that element. (False of the code if several hardlink elements have the same target_id: only the last of them is made, and it refers to the last element with that id; this is what holds.)", "quantifier": "every saved file and UXML document with ASCII names", "why_tests_cant": "arbitrary documents, nesting and orders of elements, with all other writers working in the same entry", "anchors": [{"file": "spec2nexus/plugins/uxml.py", "symbols": ["UXML_metadata.writer", "UXML_metadata.make_NeXus_links", "UXML_metadata.hardlink"]}, {"file": "spec2nexus/eznx.py", "symbols": ["makeLink"]}]}
{"id": "C47", "title": "scanf cache is transparent and bounded", "statement": "scanf(fmt, text) returns the same result whatever formats were compiled before; the cache never holds more than 1001 formats.", "quantifier": "every history of calls", "why_tests_cant": "unbounded histories", "anchors": [{"file": "spec2nexus/scanf.py", "symbols": ["scanf", "_scanf_compile", "scanf_cache"]}]}
{"id": "C48", "title": "scanf conversions", "statement": "scanf('%d',...) applied to a printed integer returns that integer; literal text must match exactly; a mismatch returns None. A format whose conversions are decimal (%d, %f, %s, %c, ...) never raises, whatever the text: it returns None or one value of the right type for each conversion (%x raises for some letters).", "quantifier": "every integer / format", "why_tests_cant": "infinite domain", "anchors": [{"file": "spec2nexus/scanf.py", "symbols": ["scanf", "scanf_translate"]}]}
{"id": "C49", "title": "scanf octal conversion", "statement": "scanf('%o', s) returns the number whose octal representation is s.", "quantifier": "every octal string", "why_tests_cant": "infinite domain", "anchors": [{"file": "spec2nexus/scanf.py", "symbols": ["scanf_translate"]}]}
{"id": "C50", "title": "Gallery change detection", "statement": "was_file_updated(f) returns True exactly if both the modification time and the size of f differ from those in the cache (0 and 0 if the cache has none for f); then the cache holds the new ones afterwards and its entries for other files are kept. Otherwise it returns False and changes nothing; the next call for the same file returns False. (So a file rewritten with the same size is not noticed, although the method is said to report files that are newer than the cache.) A cache file that was emptied and not filled again makes it fail with a ValueError.", "quantifier": "every cache state and file state", "why_tests_cant": "arbitrary histories", "anchors": [{"file": "spec2nexus/specplot_gallery.py", "symbols": ["Cache_File_Mtime.was_file_updated"]}]}
{"id": "C51", "title": "The gallery after a run that was killed", "statement": "Killed at any time, the run of the gallery for a file leaves one of three situations: nothing was changed except that the directory of the file was made; or the cache of file times is an empty file, and then every later run fails with a ValueError and plots nothing; or the cache already holds the present time and size of the file, and then later runs for the file change nothing, plots that were not finished are never made, until time and size of the file change. A run that is not killed leaves a plot for every scan that can be plotted. (So the gallery does not catch up after a crash.)", "quantifier": "every file, gallery state, and crash point (between any two changes of the disk, a file being created empty before it is filled)", "why_tests_cant": "crash points are not exercised by tests", "anchors": [{"file": "spec2nexus/specplot_gallery.py", "symbols": ["PlotSpecFileScans.plot_all_scans", "needToMakePlot", "Cache_File_Mtime"]}]}
{"id": "C52", "title": "Plot file names are distinct per scan", "statement": "Scans of one file with different names get different plot file names, if their names are written as SPEC writes them (no blanks, no leading zeros); in general two names without blanks share a plot file exactly if they are equal, or both have at most five characters and differ only in the number of zeros in front.", "quantifier": "every pair of scan names", "why_tests_cant": "infinite domain", "anchors": [{"file": "spec2nexus/specplot_gallery.py", "symbols": ["PlotSpecFileScans.plot_all_scans"]}]}
{"id": "C53", "title": "The gallery directory of a file", "statement": "The gallery directory of a file is base/YYYY/MM/name, from the date on the third line of the file and the file name without directory and extension; a file that does not begin with lines #F, #E and #D has none, and the run stops there with a TypeError, without treating the other files. Two files with the same name and month share a directory and their plots are mixed.", "quantifier": "every date, base directory, file name and content", "why_tests_cant": "large domain", "anchors": [{"file": "spec2nexus/specplot_gallery.py", "symbols": ["datePath", "getSpecFileDate"]}]}
{"id": "C54", "title": "Plot handler selection", "statement": "Selector.auto(scan) returns the image maker registered for the scan's macro; when none is registered it is chosen from the macro name (hklscan: hkl plot; names that end in scan: line plot, in mesh: mesh plot; else the default) and registered. What is registered under a name stays until that name is updated. Selector is a singleton; add refuses known names, update unknown ones, and both refuse what is not an image maker, then changing nothing; there always is a default.", "quantifier": "every history of registrations and every macro name", "why_tests_cant": "arbitrary histories", "anchors": [{"file": "spec2nexus/specplot.py", "symbols": ["Selector", "Selector.auto", "Selector.add", "Selector.update"]}, {"file": "spec2nexus/singletons.py", "symbols": ["Singleton"]}]}
{"id": "C55", "title": "Line plots use the declared columns", "statement": "A line plot of a scan read from its file shows the column named last on its #L line (with repeated labels: the first of that name) against the first column, if the scan has points and the data file is newer than the plot. For hkl scans the abscissa is the first of H, K, L that moves, or the point numbers 1..n, which are then left in the scan as a new column. Scans without data raise NoDataToPlot. Whatever the state of the scan, both axes of a picture have the same number of points. A scan that was read before is plotted the same, unless it was aborted after 0 points.", "quantifier": "every scan text; every state of the scan for the lengths", "why_tests_cant": "arbitrary data", "anchors": [{"file": "spec2nexus/specplot.py", "symbols": ["LinePlotter", "HKLScanPlotter", "ImageMaker.plot_scan"]}]}
{"id": "C56", "title": "Mesh plot indexing", "statement": "A mesh plot of a complete scan with n1 and n2 intervals is an image with one row for each value of the second axis and one column for each value of the first, whose element [j][i] is observation j*(n1+1)+i of the last column; a mesh scan stopped in its first row is shown as a line plot against the first axis. A label that is not a clean name gives no plot and no error; a mesh cannot be plotted twice.", "quantifier": "every mesh size", "why_tests_cant": "all sizes", "anchors": [{"file": "spec2nexus/specplot.py", "symbols": ["MeshPlotter"]}]}
{"id": "C57", "title": "Scan list option parsing", "statement": "parse_scan_list_spec('a,b-c,...') returns exactly the listed numbers and those of the inclusive ranges, in increasing order and each once; any other text (also 'all') is refused with ValueError or TypeError.", "quantifier": "every specification string", "why_tests_cant": "infinite domain", "anchors": [{"file": "spec2nexus/nexus.py", "symbols": ["parse_scan_list_spec"]}]}
{"id": "C58", "title": "Scan selection", "statement": "pick_scans returns all scans when no list is given; with a list of numbers exactly the scans of the file that have one of these numbers as name, in the order of the list (other numbers are dropped silently).", "quantifier": "every option and set of scans", "why_tests_cant": "arbitrary", "anchors": [{"file": "spec2nexus/nexus.py", "symbols": ["pick_scans"]}]}
{"id": "C59", "title": "What the spec2nexus command writes", "statement": "The spec2nexus command never overwrites an existing output file unless --force is given, changes no file other than its outputs, and every output written without an error is what saving the selected scans gives. The output is the file named with -o, or else the input file's name with the extension given (with or without its dot) in place of its own.", "quantifier": "every file-system state and argument list", "why_tests_cant": "arbitrary states", "anchors": [{"file": "spec2nexus/nexus.py", "symbols": ["main"]}]}
{"id": "C60", "title": "extractSpecScan ranges", "statement": "expand_scan_range_terms replaces each range a-b by its numbers a..b, and leaves every term without dash, or with a leading one, as it is, in order; other terms raise ValueError.", "quantifier": "every list of terms", "why_tests_cant": "infinite domain", "anchors": [{"file": "spec2nexus/extractSpecScan.py", "symbols": ["expand_scan_range_terms"]}]}
{"id": "C61", "title": "extractSpecScan output naming", "statement": "makeOutputFileName gives distinct names to distinct scan numbers of a file. (False of the code for names that have '_' and '.' in the same place.) The scan number, with underscores for dots, is put before the extension; the output is never the SPEC file itself.", "quantifier": "every file name and scan numbers", "why_tests_cant": "infinite domain", "anchors": [{"file": "spec2nexus/extractSpecScan.py", "symbols": ["makeOutputFileName"]}]}
{"id": "C62", "title": "extractSpecScan output rows", "statement": "The output has one line per data row holding the requested columns in the requested order; labels that are missing are reported.", "quantifier": "every scan and column list", "why_tests_cant": "arbitrary data", "anchors": [{"file": "spec2nexus/extractSpecScan.py", "symbols": ["main"]}]}
{"id": "C63", "title": "Diffractometer matching is total", "statement": "DiffractometerGeometryCatalog.match(scan) always returns a name for which the catalog has a geometry; the variant is one listed for it.", "quantifier": "every scan", "why_tests_cant": "arbitrary scans and header comments", "anchors": [{"file": "spec2nexus/diffractometers.py", "symbols": ["DiffractometerGeometryCatalog.match", "split_name_variation"]}]}
{"id": "C64", "title": "Geometry parsing", "statement": "Diffractometer.parse assigns to each parameter the value at its place in the #G rows: those of #G0, #G1 and #G4 by the tables of the catalog, with the catalog's descriptions; the UB matrix is #G3 row by row; the lattice constants, and the indices, wavelengths and angles (for the motors of the variant) of the orientation reflections, are those of #G1, for the geometries in space and for twoc; mode and sector come from #G0, the wavelength from #G4.", "quantifier": "every G table", "why_tests_cant": "arbitrary tables", "anchors": [{"file": "spec2nexus/diffractometers.py", "symbols": ["Diffractometer.parse"]}]}
{"id": "C65", "title": "No change of the file is overlooked", "statement": "After a file was opened or refreshed, update_available is True as soon as the content of the file differs from the content that was read (when every change of the content changes its modification time or size).", "quantifier": "every content read and every later content, including changes made while the file is being read", "why_tests_cant": "depends on the interleaving of the reader with the program that writes the file", "anchors": [{"file": "spec2nexus/spec.py", "symbols": ["SpecDataFile.read", "SpecDataFile.update_available"]}]}
{"id": "C66", "title": "eznx write and read back", "statement": "What write_dataset stored is read back by read_nexus_field: texts up to non-ASCII characters, a number or a one-element list as that number, longer lists as arrays of the same numbers, all floats if one of them is (or byte strings); None is read as the empty text; two-dimensional data raise RuntimeError and empty lists IndexError; a missing name gives None; reading changes nothing; only rows of different lengths cannot be written. read_nexus_group_fields gives exactly the fields asked for, each with what read_nexus_field gives (None for a missing one). Read with astype=float, numbers come back as floats of the same values and texts that are numbers as these; a text that is no number is a ValueError.", "quantifier": "every file, group, name and data", "why_tests_cant": "ranges over all data shapes and all file contents", "anchors": [{"file": "spec2nexus/eznx.py", "symbols": ["write_dataset", "makeDataset", "read_nexus_field", "read_nexus_group_fields"]}]}
{"id": "C67", "title": "Single-valued lines: #Q and #I", "statement": "scan.Q is the list of numbers on the last #Q line with content (absent when there is none); scan.I is the number on the last #I line (absent when there is none).", "quantifier": "every scan text whose interpretation succeeds", "why_tests_cant": "arbitrary numbers and orders of lines", "anchors": [{"file": "spec2nexus/plugins/spec_common.py", "symbols": ["SPEC_HKL.process", "SPEC_NormalizingFactor.process"]}]}
{"id": "C68", "title": "MCA information lines", "statement": "After interpretation scan.MCA holds the first three numbers of the last #@CALIB line, the channel numbers and the coefficient of the last #@CHANN line, the times of the last #@CTIME line, and for each name on an #@ROI line the first and last channel of the last line with that name; without such a line the item is absent.", "quantifier": "every scan text whose interpretation succeeds", "why_tests_cant": "arbitrary numbers, orders and repetitions of lines", "anchors": [{"file": "spec2nexus/plugins/spec_common.py", "symbols": ["SPEC_MCA_Calibration.process", "SPEC_MCA_ChannelInformation.process", "SPEC_MCA_CountTime.process", "SPEC_MCA_RegionOfInterest.process"]}]}
{"id": "C69", "title": "The date of a header", "statement": "Interpreting a scan never changes a date that its header has; a header without a date receives the date of the first #D line of the scan and the time of the scan.", "quantifier": "every scan text and header for which interpretation succeeds", "why_tests_cant": "arbitrary texts and headers", "anchors": [{"file": "spec2nexus/plugins/spec_common.py", "symbols": ["SPEC_Date.process"]}]}
{"id": "C70", "title": "Opening a file leaves its scans unread, ready to be saved", "statement": "Opening a SPEC data file does not interpret its scans: if no header section of the file has a #P line, then every scan of the returned object is exactly as it was created from its text (number, command, possibly date), whatever the text of the file. If moreover no mnemonic on a #j or #o line starts with '/', the object meets all that the properties of saving (C40-C49) ask of it.", "quantifier": "all file contents, all registries of the packaged handlers in any order, all environments", "why_tests_cant": "whether some control line in some section causes a scan to be interpreted while reading depends on every kind of line at every place of the file", "anchors": [{"file": "spec2nexus/spec.py", "symbols": ["SpecDataFile.read", "SpecDataFileHeader.interpret", "SpecDataFileScan.__getattribute__"]}, {"file": "spec2nexus/plugins/spec_common.py", "symbols": ["SPEC_Epoch", "SPEC_Scan", "SPEC_Date", "SPEC_Positioners"]}]}
{"id": "C71", "title": "Which plots of the gallery are made again", "statement": "In a run for a file that counts as updated, a scan whose plot file exists keeps it unless it is outdated, and otherwise it is plotted from what was read from the file now. Outdated are: all plots if the file became smaller; if the file became larger and, after the old size, it does not go on with a new scan, the plot whose file name is the last in lexical order; none otherwise. (That plot is not always the plot of the scan which goes on, and the old size is in bytes while characters are skipped.)", "quantifier": "every content, every history of the gallery, every drawing outcome", "why_tests_cant": "arbitrary contents, earlier sizes and earlier plots", "anchors": [{"file": "spec2nexus/specplot_gallery.py", "symbols": ["PlotSpecFileScans.plot_all_scans"]}]}
{"id": "C72", "title": "The index page and the copy of the file", "statement": "In a run for a file that counts as updated, the index page is written if some scan was plotted without an error or there was no page: it lists exactly the plots that exist, in chronological order of the scans (or the reverse), and exactly the scans that raised an error, in the order of their numbers, with the error. Otherwise the page is left as it was (it may list a plot that was removed). A scan without a time makes the run fail before the page is written. The data file is copied beside the plots unless a copy exists that is not older.", "quantifier": "every content, every history of the gallery, every drawing outcome", "why_tests_cant": "arbitrary contents and histories", "anchors": [{"file": "spec2nexus/specplot_gallery.py", "symbols": ["PlotSpecFileScans.plot_all_scans", "buildIndexHtml"]}]}
{"id": "C73", "title": "The gallery run touches only its own directory", "statement": "At every moment of the run for a file, everything is as it was before the run except the cache of file times, the gallery directory of the file and the files directly in it.", "quantifier": "every file, gallery state and moment of the run", "why_tests_cant": "arbitrary states and interruption points", "anchors": [{"file": "spec2nexus/specplot_gallery.py", "symbols": ["PlotSpecFileScans.plot_all_scans", "Cache_File_Mtime"]}]}
{"id": "C74", "title": "What an entry says of its scan", "statement": "After a successful save, the entry of a scan has as title the text of its #S line, as command its command, as scan_number the integer part of its number (with the attribute repeat for a repeated number), as date the date of its #D line in ISO 8601, as comments its #C lines (absent if there are none; those of the header are not there), and as Q the #Q values of the scan, or else of its header, or is absent.", "quantifier": "every file, every list of scans to save", "why_tests_cant": "arbitrary files and entries, with all writers at work in any order", "anchors": [{"file": "spec2nexus/writer.py", "symbols": ["Writer.save_scan"]}, {"file": "spec2nexus/plugins/spec_common.py", "symbols": ["SPEC_Date.writer", "SPEC_Comment.writer", "SPEC_HKL.writer"]}]}
{"id": "C75", "title": "Cross references and metadata in the entry", "statement": "After a successful save, the tables counter_cross_reference and positioner_cross_reference of the entry have exactly one text for each mnemonic of the #J/#j (#O/#o) lines, its name; bluesky_metadata has the #MD values under their cleaned keys. Each table comes from the header or from the scan: a file where both have one cannot be saved.", "quantifier": "every file whose mnemonics have no slash, every list of scans to save", "why_tests_cant": "arbitrary tables, with all other writers working in the same entry", "anchors": [{"file": "spec2nexus/plugins/spec_common.py", "symbols": ["SPEC_CounterNames.writer", "SPEC_CounterMnemonics.writer", "SPEC_PositionerMnemonics.writer"]}, {"file": "spec2nexus/plugins/apstools_specwriter.py", "symbols": ["MD_apstools.writer"]}]}
{"id": "C76", "title": "The preset of the scan in the entry", "statement": "After a successful save, M and T of the entry are the numbers of the #M and #T lines of the scan, or else of its header, with units and description, and are absent without such a line; monitor/preset shows the same as M, or as T if there is no M, which has the attribute target naming it; counting_basis says whether it is a monitor count or a time (one of the two if both are given).", "quantifier": "every file, every list of scans to save", "why_tests_cant": "arbitrary files; writers of header and scan overwrite each other's datasets", "anchors": [{"file": "spec2nexus/writer.py", "symbols": ["Writer.save_scan"]}, {"file": "spec2nexus/plugins/spec_common.py", "symbols": ["SPEC_Monitor.writer", "SPEC_CountTime.writer"]}]}
{"id": "C77", "title": "The heading in the output of extractSpecScan", "statement": "The output for a scan begins with the names of the file and of the scan and then, with the options -G, -P, -Q, -V, one line for each geometry line, positioner, the hkl values and each metadata value of the scan, in this order, each kind sorted by name, and none for an option that is not given.", "quantifier": "every file, scan and choice of options", "why_tests_cant": "arbitrary headings and all combinations of options", "anchors": [{"file": "spec2nexus/extractSpecScan.py", "symbols": ["main"]}]}
{"id": "C78", "title": "UXML metadata in the entry", "statement": "After a successful save, every dataset element of the UXML document of a scan or of its header is a dataset at its place below the group UXML of the entry, with the integer, float or text that the element states, and every group element is a group at its place; both have the attributes of the element except name, unique_id (and type). Without a document there is no such group; if both the header and the scan have one, the file cannot be saved.", "quantifier": "every saved file and UXML document with ASCII names", "why_tests_cant": "arbitrary documents and nesting, with all other writers working in the same entry", "anchors": [{"file": "spec2nexus/plugins/uxml.py", "symbols": ["UXML_metadata.writer", "UXML_metadata.walk_xml_tree", "UXML_metadata.dataset", "UXML_metadata.group"]}]}
{"id": "C79", "title": "Positioners in the entry", "statement": "After a successful save, the group positioners of the entry has one NXpositioner group for each cleaned positioner name, with exactly the datasets name and value: the value of the last positioner with that cleaned name, and as attributes its SPEC name and, if the header has a cross reference, its mnemonic. The group positioners of the group instrument is the same object, to whose path the attribute target points. Positioners come from the header or the scan: a file where both have some cannot be saved.", "quantifier": "every saved file, all numbers and names of positioners", "why_tests_cant": "arbitrary positioner tables and name collisions, with all other writers and the final links working in the same entry", "anchors": [{"file": "spec2nexus/plugins/spec_common.py", "symbols": ["SPEC_Positioners.writer"]}, {"file": "spec2nexus/writer.py", "symbols": ["Writer.save_scan"]}, {"file": "spec2nexus/eznx.py", "symbols": ["makeLink"]}]}
{"id": "C80", "title": "#H and #V values in the entry", "statement": "After a successful save, the values of the #H/#V lines of a scan (or header) are the datasets, under their cleaned labels, of the group metadata of the entry - numbers as numbers, other values as text -, which is the same object as metadata in the group instrument; without values there is no such group.", "quantifier": "every saved file, all labels and values", "why_tests_cant": "arbitrary tables of labels and values, with all other writers working in the same entry", "anchors": [{"file": "spec2nexus/plugins/unicat.py", "symbols": ["UNICAT_MetadataValues.writer"]}]}
{"id": "C81", "title": "MCA information in the entry", "statement": "After a successful save, the group MCA of the entry has the coefficients of #@CALIB, the numbers of #@CHANN and the times of #@CTIME (with their unit), those of the scan where it has such a line and otherwise those of its header, and nothing else; with #@CHANN or #@CTIME it is the same object as MCA in the group instrument. Without MCA lines there is no such group. The regions of interest of #@ROI lines are not stored, although the documentation of the line names a group for them.", "quantifier": "every saved file, every combination and order of MCA lines in header and scan", "why_tests_cant": "the combinations and orders of lines in header and scan, with all other writers working in the same entry", "anchors": [{"file": "spec2nexus/plugins/spec_common.py", "symbols": ["SPEC_MCA_Calibration.writer", "SPEC_MCA_ChannelInformation.writer", "SPEC_MCA_CountTime.writer", "SPEC_MCA_RegionOfInterest.process"]}]}
{"id": "C82", "title": "Attributes of the saved file", "statement": "After a successful save, the attributes of the root of the file are the versions of spec2nexus, h5py, HDF5 and numpy, the name of the SPEC data file, the number of headers in it, the epoch, date (ISO 8601) and joined comments of its first header, the user named in the first comment of that header (what follows 'User = ' up to the next '='), if there is one, and the default entry; there are no other attributes.", "quantifier": "every saved file with any headers and comments, every list of scans", "why_tests_cant": "the text of the first comment is arbitrary, and all scans are written into the same file after the attributes are set", "anchors": [{"file": "spec2nexus/writer.py", "symbols": ["Writer.root_attributes", "Writer.save"]}, {"file": "spec2nexus/eznx.py", "symbols": ["makeFile", "addAttributes"]}]}
{"id": "C83", "title": "Placeholder data of a scan without data", "statement": "After a successful save, the group data of the entry of a scan that has no data lines is an NXdata group with exactly the datasets no_x_data and no_y_data, both [0, 1] and labelled 'no data points in this scan', that are its default signal and axis.", "quantifier": "every saved file, every scan without data lines, every other control line in it", "why_tests_cant": "the placeholder is written after all other writers of the scan, which may create groups and datasets in the same entry", "anchors": [{"file": "spec2nexus/writer.py", "symbols": ["Writer.save"]}, {"file": "spec2nexus/plugins/spec_common.py", "symbols": ["SPEC_DataLine.writer"]}]}
{"id": "C84", "title": "XPCS parameters in the entry", "statement": "After a successful save, the parameters of the #VA, #VD and #VE lines of the header in force for a scan are, split into words, the datasets (under the cleaned key of the line) of the NXnote groups VA, VD and VE of the entry of the scan, described as 'XPCS VA parameters' and so on; these groups have no other datasets; without such lines in the header the entry has no such group, whatever lines of this kind the scan itself has.", "quantifier": "every saved file, every scan of it, all keys and texts of the lines", "why_tests_cant": "keys and texts are arbitrary, and all other writers of the header and the scan run into the same entry", "anchors": [{"file": "spec2nexus/plugins/XPCS.py", "symbols": ["XPCS_VA.process", "XPCS_VA.writer", "XPCS_VD.writer", "XPCS_VE.writer"]}, {"file": "spec2nexus/writer.py", "symbols": ["Writer.save_scan", "Writer.save_dict"]}]}
{"id": "C85", "title": "Geometry arrays in the entry", "statement": "After a successful save, the numbers of the #G lines of a scan are, line by line, the datasets (under the cleaned key of the line) of the NXnote group G of its entry, which has no other datasets; a scan without #G lines has no group G.", "quantifier": "every saved file, every scan of it, all #G lines", "why_tests_cant": "the lines are arbitrary, and the writer of the geometry also writes the diffractometer into groups it shares with other writers of the entry", "anchors": [{"file": "spec2nexus/plugins/spec_common.py", "symbols": ["SPEC_Geometry.process", "SPEC_Geometry.writer"]}, {"file": "spec2nexus/writer.py", "symbols": ["Writer.save_dict"]}]}
{"id": "C86", "title": "Diffractometer in the entry", "statement": "After a successful save, a scan with #G lines shows in its entry the diffractometer found for it: instrument/name is its full name; instrument/geometry_parameters holds each of its parameters (text, number or matrix, with description) and nothing else, and instrument/diffractometer is the same object; the group sample holds exactly the lattice constants, the UB matrix, mode and sector, one group per orientation reflection (Miller indices, wavelength, angles) and the beam, each only if known; the wavelength is in instrument/monochromator and is the same object as sample/beam/incident_wavelength. A scan without #G lines has none of these.", "quantifier": "every saved file, every scan of it, every diffractometer (with or without lattice, sector, mode, reflections, wavelength)", "why_tests_cant": "diffractometers, parameters and reflections vary without bound, and other writers write into the same groups instrument and sample before and after", "anchors": [{"file": "spec2nexus/plugins/spec_common.py", "symbols": ["SPEC_Geometry.writer"]}, {"file": "spec2nexus/diffractometers.py", "symbols": ["Diffractometer"]}, {"file": "spec2nexus/writer.py", "symbols": ["Writer.save_scan"]}, {"file": "spec2nexus/eznx.py", "symbols": ["makeLink", "write_dataset", "openGroup"]}]}
{"id": "C87", "title": "Temperature set points in the entry", "statement": "After a successful save, TEMP_SP and DEGC_SP in the entry are the set points of the #X line of the scan or else of its header, absent if neither has one; if there is one, they are the same objects as target_value and value of the NXlog group sample/temperature, to which their attribute target points, and that group has nothing else; it is absent otherwise. A scan with set points but without #G lines cannot be saved.", "quantifier": "every saved file, every scan of it, set points in the scan, in the header, in both or in none", "why_tests_cant": "the set points are written by one writer, for the header and the scan, in an order given by the lines, and linked at the end into a group that another writer made", "anchors": [{"file": "spec2nexus/plugins/spec_common.py", "symbols": ["SPEC_TemperatureSetPoint.process", "SPEC_TemperatureSetPoint.writer"]}, {"file": "spec2nexus/writer.py", "symbols": ["Writer.save_scan"]}]}
{"id": "C88", "title": "Nothing else is in an entry", "statement": "After a successful save, every part of the entry of a scan has one of 29 fixed names or is one of the groups unrecognized_1, unrecognized_2 of unrecognized lines (as many as the header and the scan have lists of such lines), and every part of its group instrument has one of seven names; the dataset experiment_description, written first, says \"SPEC scan\" with its description, whatever was written after it. With C44, C74-C81 and C83-C87, which say what is under each name, this makes the listing of an entry complete.", "quantifier": "every saved file, every scan of it, all lines the scan and the header have", "why_tests_cant": "names in an entry come from 26 writers that run in an order given by the lines, some of them with names and paths taken from the file; that none writes elsewhere must hold for all of them together", "anchors": [{"file": "spec2nexus/writer.py", "symbols": ["Writer.save", "Writer.save_scan"]}, {"file": "spec2nexus/plugins/spec_common.py", "symbols": ["writer"]}, {"file": "spec2nexus/plugins/fallback.py", "symbols": ["UnrecognizedControlLine.writer"]}]}
{"id": "C89", "title": "Saving does not raise", "statement": "Saving scans of a file completes without an exception when the file has a name and its first header an epoch and a date, no entry name is asked for twice, and for each scan: it is found and interpreted without an exception; its number has the form number or number.number; the numbers of its #M, #T and #G lines and its #D dates can be read; mnemonics used as names contain no slash; no positioner, metadata or ancillary name is empty; there are no more positioner values than mnemonics; each label of a scan with data has its column, the spectra of each detector have one length, a scan in reciprocal space has the limits in its command and a mesh has two distinct axes with their numbers of intervals; the elements of a UXML document have distinct places, simple names, values of their types and classes; no group is to be written both for the header and for the scan; and there is a described sample if there are temperatures.", "quantifier": "every file object, every list of scans, all combinations of lines the scans and headers have", "why_tests_cant": "an exception can come from any of 26 writers and their helpers through a name that is already taken, a missing group or a value of the wrong kind, depending on what was written before; absence of exceptions must hold for every combination and order of lines", "anchors": [{"file": "spec2nexus/writer.py", "symbols": ["Writer.save", "Writer.save_scan", "Writer.save_data", "Writer.mesh"]}, {"file": "spec2nexus/plugins/spec_common.py", "symbols": ["writer methods"]}, {"file": "spec2nexus/eznx.py", "symbols": ["makeGroup", "openGroup", "makeDataset", "write_dataset", "makeLink"]}]}
{"id": "C90", "title": "The numbers of the data lines arrive in the NeXus file", "statement": "When a SPEC data file is opened and scans of it are saved without an exception, then for each saved scan that is no mesh the datasets in the group data of its entry are the columns of the scan's text: labelled by the #L line (repeated labels made different by a number), with one value for each complete line of numbers (put together as #N says), in the order of the lines; and for each detector with @A lines a dataset with the numbers of these lines, in order.", "quantifier": "every file text without #P lines in headers and without mnemonics that start with '/', every list of scans (in any order, also repeated scans saved after others), every scan text with data lines whose labels have distinct cleaned names", "why_tests_cant": "reading, lazy interpretation with a shared header and writing are composed; the scan may have been interpreted before, and the other scans and the header are changed in between; must hold for every text and every list", "anchors": [{"file": "spec2nexus/spec.py", "symbols": ["SpecDataFile.read", "SpecDataFileScan.interpret"]}, {"file": "spec2nexus/plugins/spec_common.py", "symbols": ["data_lines_postprocessing"]}, {"file": "spec2nexus/writer.py", "symbols": ["Writer.save", "Writer.save_data", "Writer.oneD", "Writer.mca_spectra"]}]}
{"id": "C91", "title": "The lines of a scan arrive in the NeXus file", "statement": "When a SPEC data file is opened and scans of it are saved without an exception, then the entry of each saved scan has: the texts of the #C lines of the scan as comments (none without such lines); the #R and #U lines as numbered texts after those of the header; the lines that nothing recognizes word for word; the numbers of the last #Q line; the values of the last #M and #T lines; and the numbers of the #P lines, each as positioner under the name at the same place of the header's #O lines (if no scan has #O lines of its own).", "quantifier": "every file text without #P lines in headers and without mnemonics that start with '/', every list of scans, every scan text", "why_tests_cant": "composition of reading, lazy interpretation and writing for every text and every history of the scans and the shared header", "anchors": [{"file": "spec2nexus/spec.py", "symbols": ["SpecDataFile.read", "SpecDataFileScan.interpret"]}, {"file": "spec2nexus/plugins/spec_common.py", "symbols": ["handlers and writers of #C, #R, #U, #Q, #M, #T, #P, #O"]}, {"file": "spec2nexus/plugins/fallback.py", "symbols": ["UnrecognizedControlLine"]}, {"file": "spec2nexus/writer.py", "symbols": ["Writer.save"]}]}
{"id": "C92", "title": "The interpretation of a well-formed scan does not raise", "statement": "Reading an attribute of a freshly read scan (which interprets it) raises no exception if each line of the scan is as its kind demands (numbers where numbers are needed, a readable #D, complete #@CALIB/#@CHANN/#@CTIME/#@ROI, no #O or #H in the scan), a #L line comes after a #N line with one or two numbers, no row has more words than there are labels (at most 1000, a single label without space, none called _mca_ with @A lines), with two numbers on #N the @A lines come last, the #V lines have labels in the header's #H lines, the #j lines have names, the #P values which have a name are numbers, the #G lines have finite numbers, #G1 being absent or complete, and the UXML document is valid. Lines that nothing recognizes, and words of a data row that are no numbers, never do harm.", "quantifier": "every scan text (any number of lines, in any order, of any length), every header, every order of the handlers in the registry, every environment (clock, XML parser)", "why_tests_cant": "the absence of exceptions must hold for all texts which meet the conditions, over all the handlers and post-processors and their interplay through the scan and the shared header", "anchors": [{"file": "spec2nexus/spec.py", "symbols": ["SpecDataFileScan.interpret", "SpecDataFileScan.__getattribute__"]}, {"file": "spec2nexus/plugins/spec_common.py", "symbols": ["all process, postprocess methods", "data_lines_postprocessing"]}, {"file": "spec2nexus/plugins/unicat.py", "symbols": ["UNICAT_MetadataValues"]}, {"file": "spec2nexus/plugins/uxml.py", "symbols": ["UXML_metadata.postprocess"]}, {"file": "spec2nexus/diffractometers.py", "symbols": ["Diffractometer.parse", "DiffractometerGeometryCatalog.match"]}]}
{"id": "C93", "title": "A well-formed file can be opened", "statement": "SpecDataFile(name) of a text file that is recognised as a SPEC data file raises no exception if each section starts with '#F ', '#E ' or '#S ', each header (#E section) has a time in seconds on its first line, readable #D dates, no indented line and no line of the kinds that only scans have, at least as many names as mnemonics (#O for #o, #J for #j) and a valid UXML document, and each scan section has a #D line with a date or a time, with no line of white space before it. All scans of the opened file then have a readable date.", "quantifier": "every file text (any number of sections and lines, of any length), every file name, every order of the handlers in the registry, every environment (clock, time zone, XML parser) whose clock writes readable dates", "why_tests_cant": "the absence of exceptions must hold for all texts which meet the conditions; each header and scan is read with what the earlier sections left behind", "anchors": [{"file": "spec2nexus/spec.py", "symbols": ["SpecDataFile.__init__", "SpecDataFile.read", "SpecDataFileHeader.interpret", "SpecDataFileScan.__init__", "SpecDataFile.dissect_file"]}, {"file": "spec2nexus/plugins/spec_common.py", "symbols": ["SPEC_File.process", "SPEC_Epoch.process", "SPEC_Date.process", "SPEC_Scan.process", "header handlers and postprocess methods"]}]}
{"id": "C94", "title": "Attributes of the scans of a well-formed file can be read, in any order, without exception", "statement": "After a well-formed file (see C93) has been opened, and if the text of each scan is well formed with respect to what the text of its header states (see C92), any sequence of attribute reads of its scans - any scans, any attributes, any number of times, in any order - raises no exception, although every first read interprets a scan and may change the header it shares with other scans.", "quantifier": "every file text, every sequence of reads of any length, every order of the handlers in the registry, every environment", "why_tests_cant": "the order of the reads decides the order of interpretation, and interpretation changes the shared header: the claim ranges over all interleavings of reads and all texts", "anchors": [{"file": "spec2nexus/spec.py", "symbols": ["SpecDataFileScan.__getattribute__", "SpecDataFileScan.interpret", "SpecDataFile.getScan"]}, {"file": "spec2nexus/plugins/spec_common.py", "symbols": ["all process, postprocess methods"]}]}
{"id": "C95", "title": "A well-formed file can be converted", "statement": "If the text of a file is well formed (see C93: its sections fit; C92: each scan fits what its header states), its first header has a #D line or a scan below it, and in addition the text can be represented in the NeXus file - presets #M and #T are numbers, scans with temperatures (#X) have a unit cell (#G1), mnemonics have no '/', names are not empty, as many mnemonics as names of positioners, the spectra of a detector have one length, the command of a mesh with data has both axes with integer numbers of intervals and the counting time, its axes are different columns, H, K and L are there in reciprocal space, and spectra come with enough points; scans in reciprocal space give start and end of h, k, l, and header and scan do not both have cross references of counters, #o, #MD, #VA, #VD, #VE or UXML lines - then Writer.save of any list of its scans, in any order, with different entry names and no mesh twice, raises no exception: the conversion runs to its end.", "quantifier": "every file text (any number of sections, lines and columns), every list of scans of the file, every order of the handlers in the registry, every environment (clock, time zone, XML parser and validator)", "why_tests_cant": "the absence of exceptions in the whole chain (open, interpret, post-process, write) must hold for all texts which meet the conditions and all selections of scans; interpretation of earlier scans changes the header which later scans share", "anchors": [{"file": "spec2nexus/writer.py", "symbols": ["Writer.save", "Writer.save_scan", "Writer.save_data", "Writer.root_attributes"]}, {"file": "spec2nexus/spec.py", "symbols": ["SpecDataFile.__init__", "SpecDataFileScan.interpret"]}, {"file": "spec2nexus/plugins/spec_common.py", "symbols": ["process, postprocess and writer methods"]}, {"file": "spec2nexus/eznx.py", "symbols": ["makeGroup", "makeDataset", "write_dataset"]}]}
{"id": "C96", "title": "Further lines of a scan arrive in the NeXus file", "statement": "When a SPEC data file is opened and scans of it are saved without an exception, then the entry of each saved scan has: the text of its #S line as title, without the number as command, and the number as scan_number (with the repeat, if the number occurred before); the last #D line as date in ISO 8601 form; the values of the #V lines under the labels at the same place of the header's #H lines, as numbers where possible; the numbers of the last #@CALIB, #@CHANN, #@CTIME lines (or, without such a line, those of the header) in the group MCA; the numbers of the last #G line of each number as arrays of the group G; the keys and values of the #MD lines; and the two numbers of the last #X line, in any of its three forms, as set points of the temperature.", "quantifier": "every file text without #P lines in headers and without mnemonics that start with '/', every list of scans, every scan text, every order of the handlers", "why_tests_cant": "composition of reading, lazy interpretation and writing for every text and every history of the scans and the shared header", "anchors": [{"file": "spec2nexus/spec.py", "symbols": ["SpecDataFile.read", "SpecDataFileScan.interpret"]}, {"file": "spec2nexus/plugins/spec_common.py", "symbols": ["handlers and writers of #S, #D, #G, #X, #@CALIB, #@CHANN, #@CTIME"]}, {"file": "spec2nexus/plugins/unicat.py", "symbols": ["UNICAT_MetadataMnemonics", "UNICAT_MetadataValues"]}, {"file": "spec2nexus/plugins/apstools_specwriter.py", "symbols": ["MD_apstools"]}, {"file": "spec2nexus/writer.py", "symbols": ["Writer.save"]}]}
{"id": "C97", "title": "The lines of a header arrive in the entries of its scans", "statement": "When a SPEC data file has been opened, the attributes of each of its headers (names of positioners, mnemonics, labels, comments, #R, #U and unrecognized lines, cross references) are what the text of the header says.  When scans of it are then saved without an exception, the entry of each saved scan has the #R and #U lines of the text of its header before its own; the lines of the header that nothing recognizes, word for word, in the group unrecognized_1 (those of the scan follow); for each mnemonic of the header's #j lines the name at the same place of its #J lines, and for each of its #o lines that of its #O lines, as tables; the numbers of the #P lines under the names of the header's #O lines; the values of the #V lines under the labels of the header's #H lines; and the file has the comments of the first header and the user they name as attributes.", "quantifier": "every file text without #P lines in headers and without mnemonics that start with '/', every list of scans, every header and scan text, every order of the handlers", "why_tests_cant": "headers are shared between scans and are changed by their interpretation (#O, #D lines of scans); must hold for every text and every order in which scans are interpreted and saved", "anchors": [{"file": "spec2nexus/spec.py", "symbols": ["SpecDataFile.read", "SpecDataFileHeader.interpret"]}, {"file": "spec2nexus/plugins/spec_common.py", "symbols": ["handlers and writers of #C, #R, #U, #J, #j, #O, #o"]}, {"file": "spec2nexus/plugins/unicat.py", "symbols": ["UNICAT_MetadataMnemonics"]}, {"file": "spec2nexus/plugins/fallback.py", "symbols": ["UnrecognizedControlLine"]}, {"file": "spec2nexus/writer.py", "symbols": ["Writer.save", "Writer.root_attributes"]}]}
{"id": "C98", "title": "The diffractometer arrives in the NeXus file", "statement": "When a SPEC data file is opened and scans of it are saved without an exception, then the entry of each saved scan with #G lines names the diffractometer that the first #C line of its header states (as 'fourc  User = name'), or else the first variant of the catalog with as many #G0 and #G4 numbers as the scan and with the header's first motors (mnemonics of #o lines, else names of #O lines), or else 'spec'; the texts of header and scan determine it.  The numbers on the last #G0, #G1, #G4 line are there as the parameters that the catalog has at these places, with its descriptions; those of #G3 as orientation matrix; those of #G1 as unit cell and orientation reflections, with indices, wavelengths and the angles of the variant's motors; the wavelength LAMBDA of #G4 as that of the monochromator and the beam; mode and sector from #G0.  A scan without #G lines has no diffractometer and no sample in its entry.", "quantifier": "every file text without #P lines in headers and without mnemonics that start with '/', every list of scans, every header and scan text, every order of the handlers", "why_tests_cant": "matching against the catalog, parsing and writing for every text and every history of the header that the scans share", "anchors": [{"file": "spec2nexus/diffractometers.py", "symbols": ["Diffractometer.parse", "DiffractometerGeometryCatalog.match"]}, {"file": "spec2nexus/plugins/spec_common.py", "symbols": ["SPEC_Geometry.process", "SPEC_Geometry.postprocess", "SPEC_Geometry.writer"]}, {"file": "spec2nexus/spec.py", "symbols": ["SpecDataFile.read", "SpecDataFileScan.interpret"]}, {"file": "spec2nexus/writer.py", "symbols": ["Writer.save"]}]}
{"id": "C99", "title": "Lines of plug-ins arrive in the NeXus file", "statement": "When a SPEC data file is opened and scans of it are saved without an exception, the lines of plug-ins in the text of the header are what the entry of each of its scans says: the words of the #VA, #VD and #VE lines (the last line of each key) are the datasets of the groups VA, VD and VE, absent without such lines; the '#MD key = value' lines are the group bluesky_metadata (the last value of each key); the XML of the #UXML lines of the header or of the scan (never both) is the group UXML, each element at its place; the set points of the temperature are those of the last #X line of the header and the scan, absent without one; the numbers of the last #@CALIB, #@CHANN and #@CTIME lines of the header and the scan are the group MCA, which is absent without such lines.", "quantifier": "every file without #P lines in its headers and with one header section in force per scan, every list of saved keys, every number, order and repetition of such lines", "why_tests_cant": "texts, keys, numbers and XML documents are arbitrary; reader, plug-ins, post-processors and all writers of header and scan take part", "anchors": [{"file": "spec2nexus/plugins/XPCS.py", "symbols": ["XPCS_VA.process", "XPCS_VA.writer"]}, {"file": "spec2nexus/plugins/apstools_specwriter.py", "symbols": ["MD_apstools"]}, {"file": "spec2nexus/plugins/uxml.py", "symbols": ["UXML_metadata.process", "UXML_metadata.postprocess", "UXML_metadata.writer"]}, {"file": "spec2nexus/plugins/spec_common.py", "symbols": ["SPEC_TemperatureSetPoint", "SPEC_MCA_Calibration", "SPEC_MCA_ChannelInformation", "SPEC_MCA_CountTime"]}, {"file": "spec2nexus/spec.py", "symbols": ["SpecDataFile.read", "SpecDataFileHeader.interpret"]}, {"file": "spec2nexus/writer.py", "symbols": ["Writer.save", "Writer.save_scan"]}]}
{"id": "C100", "title": "Reports on the diffractometer", "statement": "For every interpreted scan with #G lines, str(), print_brief(scan) and print_all(scan) of its diffractometer tell what the lines of the scan say.  str() is 'Diffractometer(geometry=..., wavelength=..., mode=..., sector=..., h=..., k=..., l=...)', where the Miller indices are the first numbers of the #G4 line (h and k only for twoc_old, none for spec and oscam) and the wavelength the number at the place of LAMBDA.  print_brief has one line each for the name, the Miller indices, the angles alpha, beta, azimuth, for omega and wavelength, and for each of the first numgeo motors of the scan.  print_all has one line for each distinct item: file, number, command, date, the items above, unit cell, full name, the matrix of the nine numbers of #G3, the reflections and the motors; an item keeps its place and shows the last value; names are centred in a column as wide as the longest.  Without a #G4 line of as many numbers as the geometry has, all three raise KeyError; without a #G3 line of nine numbers, print_all raises AttributeError.", "quantifier": "every text of a scan, every header, every order of the handlers, every way in which Python writes floats, arrays and dates", "why_tests_cant": "numbers, motors, names and combinations of lines are arbitrary", "anchors": [{"file": "spec2nexus/diffractometers.py", "symbols": ["Diffractometer.__str__", "Diffractometer.print_brief", "Diffractometer.print_all", "Diffractometer._get_info_dict", "Diffractometer._Q_names", "Diffractometer._positioners_dict", "Diffractometer._get_Q_dict"]}]}
{"id": "C101", "title": "The index page tells what was plotted", "statement": "Whoever reads the text of an index page (an attribute ends at the next quote, an item at the next '<') finds exactly one link per plot, in the order of the page, to the image it shows, with the number and the command of the scan as text; exactly one item per scan that failed, in order, with the class of the error and the number; headings with the number of both; and a link to the copy of the data file. In particular pages with the same text list the same plots and problems, and the page a run leaves tells of the plots in the order C72 states. This needs texts without the characters of the marks: commands are not escaped, and a scan whose command has a double quote gets a line that is no link any more.", "quantifier": "every list of plots and problems, every file, every machine", "why_tests_cant": "names, commands and lists are arbitrary", "anchors": [{"file": "spec2nexus/specplot_gallery.py", "symbols": ["buildIndexHtml", "PlotSpecFileScans.href_format", "PlotSpecFileScans.plot_all_scans"]}]}
{"id": "C102", "title": "The gallery command", "statement": "specplot_gallery works on exactly the SPEC data files among the given paths and directly in the given directories, in the order of the paths; paths that do not exist and other files are passed over. If the base directory (-d, else the working directory) does not exist or is no directory it fails and changes nothing. The first file that fails ends the run with its error. At any time of the run (also if it is killed) nothing was changed but the cache of file times, the gallery directories of the files and what is in them. After a run without an error, calling it again with the same files as they were does nothing at all.", "quantifier": "every list of paths, every content of the directories and files, every state of the gallery, every crash point", "why_tests_cant": "paths, contents and histories are arbitrary", "anchors": [{"file": "spec2nexus/specplot_gallery.py", "symbols": ["main", "PlotSpecFileScans.__init__", "PlotSpecFileScans.plot_all_scans", "Cache_File_Mtime"]}]}
{"id": "C103", "title": "Loading of plugins", "statement": "Whatever the order in which the directory of the package is listed, loading the handlers succeeds and registers every packaged handler exactly once; the names of lazy attributes are exactly theirs; a control line is then dispatched as C16 states. Plugins of the user with keys of their own, registered later, never take a line from a packaged handler (except a line whose first word is literally their key); a line that no packaged handler recognizes goes to the first plugin of the user, in the order of registration, that matches it, and to none if none matches. For a line whose first word is literally a key, the handler registered last under that key is used. Installing a file that is missing or is no .py file raises and changes nothing; a file whose import raises leaves the handlers it defined before registered; the first file that fails ends the loading.", "quantifier": "every order of the listing, every list of plugins, every control line", "why_tests_cant": "the order of a directory listing is that of the operating system; lists of plugins and lines are arbitrary", "anchors": [{"file": "spec2nexus/control_lines.py", "symbols": ["ControlLines.__init__", "_plugin_files", "get_control_key", "match_control_key"]}, {"file": "spec2nexus/plugin_core.py", "symbols": ["install_user_plugin", "PluginMounter._enroll"]}]}
{"id": "C104", "title": "What plots draw", "statement": "A line plot of a scan draws one point per row of its table, in the order of the rows; on a log axis it is refused exactly if no value is positive. A mesh plot draws one pixel per point of the mesh; on an axis with equal steps each point is in the middle of its pixel; on other axes a point is inside its pixel exactly if the next point is at least half of the first step away. Positive finite values are shown as they are; zero and negative ones as the smallest positive one if no value of the image is NaN, and not at all if one is (in particular if the mesh was not completed); NaN and infinity are not shown. On a log scale larger values are shown larger, the smallest positive as 0 and the largest as 1. An axis with fewer than two points (a mesh scan stopped when its first row was complete) makes drawing raise IndexError.", "quantifier": "every scan, every image and every pair of axes, every function that grows as the logarithm does", "why_tests_cant": "values, shapes and axes are arbitrary", "anchors": [{"file": "spec2nexus/charts.py", "symbols": ["make_png", "xy_plot"]}, {"file": "spec2nexus/specplot.py", "symbols": ["MeshPlotter.make_image", "LinePlotter.make_image"]}]}
{"id": "C105", "title": "The specplot command", "statement": "specplot specFile scan_number plotFile changes at most the plot file. If it fails, the plot file is as it was. If it changes the plot file, that holds what is drawn (C104) for the scan that getScan finds under this number, by the plotter that the name of the macro selects (C54), and the data file was newer than the plot file before. A plot file at least as new as the data file is left as it is (so a data file given as plot file too is not overwritten), and a second run after the first changes nothing. For a scan with points and different labels that is neither hklscan nor a mesh, the plot has one point per row of the table, of the first and the last column; for a mesh scan with more than one row it is the image of the mesh; a mesh scan with only its first row raises IndexError. A number that is not in the file raises UnexpectedObjectTypeError.", "quantifier": "every data file, every scan number, every state and time of the plot file", "why_tests_cant": "files, numbers and times are arbitrary", "anchors": [{"file": "spec2nexus/specplot.py", "symbols": ["main", "openSpecFile", "Selector.auto", "ImageMaker.plot_scan"]}, {"file": "spec2nexus/charts.py", "symbols": ["xy_plot", "make_png"]}]}
{"id": "C106", "title": "A conversion that fails", "statement": "If save(file, [n1, ...]) raises, there is a scan k of the list at which it raised such that the scans before k alone can be saved, and the NeXus file holds exactly what saving just those gives: the same root attributes (so the default entry is a complete one), the same entries in the same order, and every object in them with the same contents, attributes and links; at most an unfinished entry S<k> is there in addition, and nothing of the scans after k. The only other case is a data file without what the root attributes need (a header with an epoch): then the NeXus file is empty. A scan named twice always raises ValueError and leaves the file as before its second turn; a scan that is not in the data file leaves an entry with only the description of the experiment.", "quantifier": "every data file with well-formed names, every list of scan numbers, every scan and line at which an exception is raised", "why_tests_cant": "the failing scan, the failing line and what was written before it are arbitrary", "anchors": [{"file": "spec2nexus/writer.py", "symbols": ["Writer.save", "Writer.save_scan", "Writer.root_attributes"]}, {"file": "spec2nexus/eznx.py", "symbols": ["makeGroup", "makeDataset"]}]}
{"id": "C107", "title": "The entry of a scan does not depend on the other scans saved with it", "statement": "If save(file, [n1, ...]) succeeds, then each of the scans can be saved alone, and its entry is the same: at every path below S<n> the same dataset (values, type and attributes), group and names, and the same hard links. So the entry is the same in every order and selection in which the scan is saved. Several scans can be saved together exactly if each can be saved alone and their names differ, and if the save of several raises, the save of one of them alone raises the same exception (or a name is twice in the list). This holds for scans without #O lines of their own (these are kept in the header, for the scans that are read after them), a header with a date, meshes whose labels do not start with '/', and no mesh twice in the list under different names; each of the first and third exceptions is real.", "quantifier": "every data file with well-formed names, every two lists of scan numbers, every path below the entry", "why_tests_cant": "the other scans, their number, order and contents, and the objects that are already in the file when a scan is written are arbitrary", "anchors": [{"file": "spec2nexus/writer.py", "symbols": ["Writer.save", "Writer.save_scan", "Writer.save_data", "Writer.mesh"]}, {"file": "spec2nexus/eznx.py", "symbols": ["makeGroup", "makeDataset", "makeLink"]}, {"file": "spec2nexus/spec.py", "symbols": ["SpecDataFile.getScan", "SpecDataFileScan.interpret"]}, {"file": "spec2nexus/plugins/spec_common.py", "symbols": ["SPEC_PositionerNames.process", "SPEC_Date.process"]}]}
{"id": "C108", "title": "Sections at the end of a data file do not change the entries of the scans before them", "statement": "If a data file grows (new header and scan sections after the ones that are there, for instance while SPEC goes on), then every scan that could be selected by its number before is the same scan under the same number when the longer file is opened, with the same header, and saving it gives the same entry or raises the same exception. So converting the file again after it has grown gives the same entries for the scans that were there, whatever other scans are saved in either conversion. New scans with a number that was used before get a number with a suffix and do not displace the old ones. The one condition is that no appended header section has a #P line: such a line is added to the positions of the scan before it (this exception is real). Text appended after the newline at the end of the file, whose first line starts a section, is such a growth.", "quantifier": "every data file that can be opened, every list of appended sections such that the longer file can be opened, every positive scan number, every list of scans saved with it", "why_tests_cant": "the sections before and after, their number, order and contents are arbitrary; the claim relates two readings and two conversions", "anchors": [{"file": "spec2nexus/spec.py", "symbols": ["SpecDataFile.read", "SpecDataFile.dissect_file", "SpecDataFile.getScan"]}, {"file": "spec2nexus/plugins/spec_common.py", "symbols": ["SPEC_Scan.process", "SPEC_Date.process", "SPEC_Epoch.process", "SPEC_Positioners.process"]}, {"file": "spec2nexus/writer.py", "symbols": ["Writer.save", "Writer.save_scan"]}]}
{"id": "C109", "title": "Plots, extracted text and the NeXus file agree on the data of a scan", "statement": "When the same scan is converted to NeXus, drawn by specplot and printed by extractSpecScan, the tools show the same numbers. For a scan that is neither a mesh nor a scan in reciprocal space, the line plot shows the values of the dataset that the attribute signal of the NXdata group names against the values of the dataset that its attribute axes names, and the titles of its axes are the SPEC labels of these datasets. For a scan in reciprocal space the plot shows the signal dataset against one of the datasets H, K, L, or against the numbers of the points if all three datasets are constant. The rows of the text that extractSpecScan writes are made of a table, and each of its columns is in the NeXus file as the dataset with the cleaned label.", "quantifier": "every data file and every choice of scans that can be converted, every scan of them with data whose column labels have different cleaned names, every command line of extractSpecScan with columns of the scan", "why_tests_cant": "three code paths (retrieve/plot, the text writer and the HDF5 writer with its name cleaning, repeated labels and first/last column choice) have to agree on all texts; tests look at each tool by itself and at a few files.", "anchors": [{"file": "spec2nexus/specplot.py", "symbols": ["LinePlotter.retrieve_plot_data", "HKLScanPlotter.retrieve_plot_data", "ImageMaker.plot_scan"]}, {"file": "spec2nexus/writer.py", "symbols": ["Writer.save_scan", "Writer.save_data", "Writer.oneD"]}, {"file": "spec2nexus/extractSpecScan.py", "symbols": ["main"]}]}
{"id": "C110", "title": "What was done with an open data file before does not show in what is saved or read", "statement": "After a data file was opened, attributes of its scans may be read and scans may be saved to NeXus files, in any order and number, with or without an exception (of scans that can be interpreted, and that are not meshes when they are saved). Whatever was done, Writer.save with a list of scans (meshes included) then writes exactly the same HDF5 content, or raises the same exception, as it would have done right after opening; and reading an attribute gives the same scan object. (Files with #O lines in their headers only, and no #P lines there.)", "quantifier": "every data file, every finite history of reads and saves, every list of scans of the last save, every attribute", "why_tests_cant": "lazy interpretation, the in-place change of label lists and the headers shared by scans are hidden state; a test runs one history, the property is about all of them.", "anchors": [{"file": "spec2nexus/spec.py", "symbols": ["SpecDataFileScan.__getattribute__", "SpecDataFileScan.interpret"]}, {"file": "spec2nexus/writer.py", "symbols": ["Writer.save", "Writer.save_scan", "Writer.mesh"]}]}
{"id": "C111", "title": "refresh() leaves the scans that were read before as they are", "statement": "Whatever has become of the data file (grown, shortened, rewritten; no #P lines in its header sections), if refresh() does not raise, then each scan of the file object, except the last one in it and the one that last_scan names, is the same object under the same name, with everything that was read of it, and with the same header (if that has a date). So, whatever was done with the file object since the file was opened (attributes read, scans saved), saving such a scan after refresh() gives the entry that it would have given right after opening, or raises the same exception. The last scan is an exception: it may have been incomplete, and is made anew.", "quantifier": "every file object, every content of the data file at the time of the refresh, every scan but the last one, every history of reads and saves before it", "why_tests_cant": "the two contents of the file are arbitrary and need not be related, and so is what was done with the object before; a test refreshes after one particular growth", "anchors": [{"file": "spec2nexus/spec.py", "symbols": ["SpecDataFile.refresh", "SpecDataFile.read", "SpecDataFile.update_available"]}, {"file": "spec2nexus/plugins/spec_common.py", "symbols": ["SPEC_Scan.process", "SPEC_Date.process"]}, {"file": "spec2nexus/writer.py", "symbols": ["Writer.save"]}]}
{"id": "C112", "title": "One catalog of diffractometer geometries, whose answers have no history", "statement": "get_geometry_catalog() returns the same object until reset_geometry_catalog() is called, whatever is done between and whatever the dictionary file contains by then; after a reset it returns a new object with the content of the file at that time. What a catalog answers (geometries, get, has_geometry) depends only on the content it was made with, not on the calls made before; with the dictionary of the package, match(scan) of any catalog at any time is a function of the scan alone. A catalog cannot be made directly at first or after a reset. (Two exceptions are real: after get_geometry_catalog() has returned, a second catalog can be made directly; and if the file cannot be read, later calls return the number 0 until a reset, and matching a scan whose header states its geometry raises AttributeError.)", "quantifier": "every sequence of calls (get, reset, direct construction, geometries, get, has_geometry, match), every content of the dictionary file at each reading, failures to read it included", "why_tests_cant": "the module variable and the cached lists are hidden state shared by all callers; the claim is about all sequences of calls", "anchors": [{"file": "spec2nexus/diffractometers.py", "symbols": ["get_geometry_catalog", "reset_geometry_catalog", "DiffractometerGeometryCatalog.__init__", "DiffractometerGeometryCatalog.geometries", "DiffractometerGeometryCatalog.get", "DiffractometerGeometryCatalog.has_geometry", "DiffractometerGeometryCatalog.match"]}]}
{"id": "C113", "title": "A plotter that is used again draws the curve of the new scan", "statement": "After any calls of plot_scan() of one LinePlotter object, with or without exceptions, the next call draws the same curve (x and y values) as a new LinePlotter would draw for that scan, or raises the same exception, or draws nothing where the new one draws nothing; and it leaves the scan as the new one would. The same holds for HKLScanPlotter if one of the columns H, K and L of the scan is not constant, and for MeshPlotter if the object has no data under the labels of the scan, in particular if the scans before have no names (columns, labels, spectra) in common with these labels; an image of a mesh has the subtitle and the axis titles of its own scan. The title, subtitle, timestamp and axis titles of a line plotter, once set, stay those of the first scan. (Two defects are real: a MeshPlotter that has data under the name of the column to be drawn, from a scan before, draws these whatever the new scan is; an HKLScanPlotter that is used for a scan at a constant point draws it against the axis of the scan before.)", "quantifier": "every sequence of calls of plot_scan of one object: every scan (interpreted already or not), every data file name and time, every time of the plot file, exceptions included", "why_tests_cant": "the object keeps its data, axes and settings between the calls; the claim is about all sequences of scans", "anchors": [{"file": "spec2nexus/specplot.py", "symbols": ["ImageMaker.plot_scan", "ImageMaker.set_plot_title", "LinePlotter.retrieve_plot_data", "LinePlotter.plot_options", "HKLScanPlotter.retrieve_plot_data", "MeshPlotter.retrieve_plot_data", "MeshPlotter.make_image", "MeshPlotter.plottable"]}]}
{"id": "C114", "title": "Line plots of a data file do not show in what is saved, read or plotted afterwards", "statement": "After a data file was opened, attributes of its scans may be read, scans may be saved to NeXus files, and scans may be plotted with LinePlotter objects (new or used before), in any order and number, with or without an exception (of scans that can be interpreted, and that are not meshes when they are saved). Whatever was done, Writer.save with a list of scans then writes the same HDF5 content, or raises the same exception, as right after opening; reading an attribute gives the same scan object; and plot_scan of a LinePlotter draws the same curve of a scan that was not aborted before its first point, or raises the same exception, as right after opening. A plot changes nothing in the scan, aside from its interpretation, but: HKLScanPlotter its column_first (H, K, L, or the new column of point numbers), MeshPlotter its list of labels, from which labels are taken. (For saving, reading and plotting: files with #O lines in their headers only, and no #P lines there. Other plots are real exceptions: a mesh that was plotted by MeshPlotter cannot be saved afterwards (ValueError); an hklscan with spectra that was plotted by HKLScanPlotter is saved with another axis of its spectra.)", "quantifier": "every data file, every finite history of reads, saves and line plots, every list of scans of the last save, every scan of the last plot, every state of the plotters, all times of data and plot files", "why_tests_cant": "plotting interprets the scan, and shares it with the writer; the claim is about all histories of calls", "anchors": [{"file": "spec2nexus/specplot.py", "symbols": ["ImageMaker.plot_scan", "LinePlotter.retrieve_plot_data", "MeshPlotter.retrieve_plot_data"]}, {"file": "spec2nexus/writer.py", "symbols": ["Writer.save"]}, {"file": "spec2nexus/spec.py", "symbols": ["SpecDataFileScan.interpret", "SpecDataFileScan.__getattribute__"]}]}
{"id": "C115", "title": "The eznx example file", "statement": "The example script, run with any text of data in place of its own: if each line (blank ones at the ends apart) has two numbers, it makes a file that holds the columns, with units, as datasets two_theta and counts of /entry/instrument/detector, and the same two objects in /entry/data, with the classes, default and plot attributes of the script and nothing else; reading a field at either place gives the numbers back; what is done to the file later by eznx functions through one place is seen through the other. For every text, either ValueError is raised and no file is made, or reading the file gives the first two numbers of every line. The script succeeds exactly if the first two words of every line are numbers and some line has only two words, with numbers as third words of the lines before it. Without a line, or with a line of fewer than two words, it is ValueError.", "quantifier": "every text, and every later history of eznx operations", "why_tests_cant": "the tests have one table of eleven rows; texts and later histories are unbounded", "anchors": [{"file": "spec2nexus/eznx_example.py", "symbols": ["tthData", "countsData", "makeLink"]}, {"file": "spec2nexus/eznx.py", "symbols": ["makeFile", "makeGroup", "makeDataset", "makeLink", "read_nexus_field"]}]}

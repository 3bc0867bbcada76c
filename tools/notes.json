{
 "C06": {
  "note": "Proved for every history of accesses and refreshes in which the file grows `Safe`ly. For other growth the claim is false of the code: C06_dates_out_of_order, C06_short_scan, C06_header_after_last_scan, C06_no_scan_yet are concrete runs."
 },
 "C07": {
  "note": "update_available, the recorded stat and the result of refresh, for every file state; missing file raises OSError."
 },
 "C08": {
  "note": "Stable sort by int value when all names are ints, by float value otherwise (NaN names excluded); ValueError exactly when a name is no number."
 },
 "C09": {
  "note": "For file objects whose scans are stored under their own names (proved for every opened file, open_wellNamed)."
 },
 "C10": {
  "note": "Including which one of equals is returned for first/last."
 },
 "C11": {
  "note": "By name (>= 1), by position (< 1), None / IndexError / ValueError cases."
 },
 "C12": {
  "note": "Ranges, steps >= 0, steps < 0, mixed signs; C12_no_upper_bound shows that sdf[a:] leaves out the chronologically last scan (code behaviour)."
 },
 "C13": {
  "note": "Relative slices and negative single indices; IndexError on files without scans."
 },
 "C14": {
  "note": "Concatenation, and the first failing item decides the exception."
 },
 "C15": {
  "note": "All scans, or the listed ones; names must be numbers >= 1."
 },
 "C38": {
  "note": "Model/H5.lean + Model eznx functions; names of one path component. Link of an overwritten dataset keeps the old value (C38_old_link_keeps_old_value)."
 },
 "C39": {
  "note": "relative names and group-path targets, as the writers use them; path components ASCII."
 },
 "C42": {
  "note": "The statement is false of the code: C42_transposed is a file in which element (i,j) is not the observation at i,j (the shape is (n1,n2) while the first axis varies fastest). Proved instead, for every saved mesh: axes, shape, order of values, padding, signal and axes attributes. C42_second_save: a mesh cannot be saved twice from one file object."
 },
 "C49": {
  "note": "The code converts %o with int(x, 7): the full statement is refuted by C49_false/C49_raises; C49_partial says exactly when the result is right.",
  "status": "partial"
 },
 "C50": {
  "note": "exact condition (both time and size differ), cache afterwards, once, torn cache; C50_missed proves that the documented meaning is not met"
 },
 "C51": {
  "note": "classification of every crash point, and what the later runs do in each; the hoped-for recovery is refuted by C51_lost, C51_stuck and the concrete C51_not_caught_up"
 },
 "C52": {
  "note": "distinct for plain names, and the exact condition for sharing a plot file; C52_collision shows 01 and 1"
 },
 "C53": {
  "note": "directory for every date and name; files without the three header lines stop the run; C53_shared shows two files mixed in one directory"
 },
 "C63": {
  "note": "Refuted in full by C63_false (header comment 'fourc.kappa  User = me' gives an unknown name); C63_partial proves it for all scans whose header does not state a dotted name; C63_total, C63_stated, C63_first_agreeing hold for every scan; C63_others_never: variants that need other motors are never found.",
  "status": "partial"
 },
 "C64": {
  "note": "C64_G excludes the keys that #G1 redefines (C64_G_redefined lists them: surf, twoc_old). C64_short_G1: rows of 2..31 numbers cannot be parsed."
 },
 "C65": {
  "note": "Proved when the file does not change while it is read; C65_lost_update shows the race in read() (text read before mtime/size are taken)."
 },
 "C66": {
  "note": "astype argument not modelled."
 },
 "C67": {
  "note": "#Q and #I lines: last one with content wins"
 },
 "C68": {
  "note": "Per line kind, for every successful interpretation of a fresh scan; #@ROI lines that are a name and two integers separated by blanks."
 },
 "C69": {
  "note": "#D lines that are a date (more than one word); numbers (epoch form) excluded."
 },
 "C71": {
  "note": "exact rule for the plot file of every scan, with its three cases; C71_stale and C71_bytes show plots that keep old points"
 },
 "C72": {
  "note": "content and order of the page and the list of problems; when it is not rewritten; C72_dangling shows a page that lists a removed plot"
 },
 "C73": {
  "note": "for every moment of the run, also if the cache cannot be read"
 },
 "C44": {
  "note": "for every successful save of a Savable file (no mnemonic is an absolute path; scan names as the file gives them), all scans, all writers and registration orders"
 },
 "C74": {
  "note": "scan_number: for numbers written n and n.m with m > 0"
 },
 "C75": {
  "note": "names in the cross references must be non-empty, not '.' and without '/'; C75_twice is a file whose header and scan both have counters"
 },
 "C76": {
  "note": "M and T are compared as texts; the numbers are what float() gives for them. The link is stated as equal content, not as the same object"
 },
 "C54": {
  "note": "all histories of the selector; the rule for unregistered macros is Spec/Plot.lean"
 },
 "C55": {
  "note": "hkl plots: values of H, K, L are not NaN; C55_duplicate, C55_no_L, C55_aborted show the odd cases"
 },
 "C56": {
  "note": "C56_unclean_label and C56_second_plot show the two defects"
 },
 "C57": {
  "note": "C57_all_refused: the documented -s all is refused"
 },
 "C58": {
  "note": "scan names with a fraction can never be listed"
 },
 "C59": {
  "note": "C59_existing_kept, C59_only_outputs, C59_converts, C59_output_name; argparse is not modelled, aliasing of file names is"
 },
 "C61": {
  "note": "refuted by C61_collision (1_2 and 1.2); C61_partial proves distinctness for names without underscores"
 },
 "C62": {
  "note": "for each scan of a run whose output is not written again by a later one; str(float) is an arbitrary function"
 },
 "C70": {
  "note": "C70_positions_in_header: a #P line in a header interprets the latest scan"
 },
 "C77": {
  "note": "header as read from the file for the first scan of the run; sorted by code points"
 },
 "C46": {
  "note": "The statement is false of the code: C46_two_links is a valid document with two links to one id, of which only one is made. C46_links_partial proves it for hard links whose target_id no other hard link has and ids that no other element has; C46_last is what holds for all documents."
 },
 "C78": {
  "note": "for documents whose names are simple ASCII names (the schema's NCName also allows other letters)"
 },
 "C80": {
  "note": "values whose label has a cleaned form that another label shares are left out of the claim (the last one is kept)"
 },
 "C82": {
  "note": "a first comment without 'User = ' that ends with '=' gives an empty SPEC_user (C82_example): left out of C82_no_user"
 },
 "C101": {
  "note": "For texts without the characters of the marks (PagePlain); C101_quote: a command with a double quote is not escaped and breaks its link, for every such command. C101_run joins it to C72."
 },
 "C102": {
  "note": "For files with a gallery directory (Galleried, as in C51, C73); C102_files, C102_refuses, C102_stops need no such hypothesis. The listing of a directory is any list of names."
 }
}
import Verif.Spec.GalleryPage
import Verif.Props.GalleryCrash
import Verif.Props.GalleryDemo
import Verif.Props.ArriveMore
import Verif.Lemmas.H5
/-
Property C101: the text of the index page tells what the page is meant to tell.
-/
namespace S2N.Props
open S2N Py Spec Gallery Plot

/-- a text of lines, each with a line end -/
def linesText (ls : List Str) : Str := ls.flatMap (fun l => l ++ ['\n'])

theorem linesText_append (a b : List Str) : linesText (a ++ b) = linesText a ++ linesText b := by
  simp [linesText]

theorem splitC_linesText : ∀ (ls : List Str), (∀ l ∈ ls, '\n' ∉ l) → splitC '\n' (linesText ls) = ls ++ [[]]
  | [], _ => rfl
  | l :: ls, h => by
    have ih := splitC_linesText ls (fun x hx => h x (List.mem_cons_of_mem _ hx))
    have h1 : ∀ c ∈ l, (c == '\n') = false := by
      intro c hc
      simp only [beq_eq_false_iff_ne, ne_eq]
      rintro rfl
      exact h l List.mem_cons_self hc
    have : linesText (l :: ls) = l ++ '\n' :: linesText ls := by simp [linesText]
    rw [this]
    unfold splitC at ih ⊢
    rw [splitP_append_sep _ l '\n' _ h1 (by rfl), ih]
    rfl

/-- the first lines of the page -/
def topLines (h : Host) (f : Str) : List Str :=
  [p!"<html>", p!"  <head>", p!"    <title>SPEC scans from " ++ baseName f ++ p!"</title>", p!"    <!-- ",
   p!"   written by: " ++ h.program, p!"   date: " ++ h.date, p!"   workstation: " ++ h.workstation,
   p!"   username: " ++ h.username, p!"   version: " ++ h.version, p!"   pid: " ++ intStr h.pid, p!" -->",
   p!"  </head>", p!"  <body>", p!"    <h1>SPEC scans from: " ++ baseName f ++ p!"</h1>", [],
   p!"    spec file: " ++ (p!"<a href='" ++ baseName f ++ p!"'>" ++ f ++ p!"</a>"), p!"    <br />", []]

/-- the lines about problems -/
def problemLines (ps : List Str) : List Str :=
  if ps = [] then []
  else [p!"    <h2>" ++ natStr ps.length ++ p!" scan(s) with plotting problems</h2>", [], p!"    <ul>"] ++
    ps.map (fun item => p!"    <li>" ++ item ++ p!"</li>") ++ [p!"    </ul>"]

/-- the lines with the links -/
def linkLines (ls : List Str) : List Str := if ls = [] then [[]] else ls

/-- the last lines -/
def endLines (h : Host) : List Str :=
  [[], p!"    <hr />", p!"    <center><small>" ++ (p!"page created: " ++ h.now ++
    (p!", specplot_gallery documentation: <a href=\"" ++ docUrl ++ p!"\">" ++ docUrl ++ p!"</a>")) ++
    p!"</small></center>", [], p!"  </body>", p!"</html>"]

theorem linkLines_text (ls : List Str) : linesText (linkLines ls) = join ['\n'] ls ++ ['\n'] := by
  unfold linkLines
  split
  · next e => subst e; rfl
  · next hne =>
    induction ls with
    | nil => exact absurd rfl hne
    | cons a t ih =>
      cases t with
      | nil => simp [linesText, join]
      | cons b t =>
        rw [join_cons _ _ _ (by simp), List.append_assoc, ← ih (by simp)]
        simp [linesText]

theorem problemLines_text (ps : List Str) : linesText (problemLines ps) =
    if 0 < ps.length then
      (p!"    <h2>" ++ natStr ps.length ++ p!" scan(s) with plotting problems</h2>\n") ++ p!"\n" ++
      p!"    <ul>\n" ++ ps.flatMap (fun item => p!"    <li>" ++ item ++ p!"</li>\n") ++ p!"    </ul>\n"
    else [] := by
  unfold problemLines
  cases ps with
  | nil => rfl
  | cons a t =>
    rw [if_neg (by simp), if_pos (by simp)]
    simp [linesText, List.flatMap_map]

set_option maxRecDepth 20000 in
theorem html_lines (h : Host) (f : Str) (ls ps : List Str) : buildIndexHtml h f ls ps =
    linesText (topLines h f ++ problemLines ps ++ [[], p!"    <h2>" ++ natStr ls.length ++ p!" plotted scan(s)</h2>", []] ++
      linkLines ls ++ endLines h) := by
  simp only [linesText_append, linkLines_text, problemLines_text]
  unfold buildIndexHtml pageComment topLines endLines linesText
  simp only [List.flatMap_cons, List.flatMap_nil, List.append_assoc, List.nil_append, List.append_nil]
  rfl

theorem until_append {c : Char} : ∀ (v t : Str), c ∉ v → until? c (v ++ c :: t) = some (v, t)
  | [], t, _ => by simp [until?]
  | d :: v, t, h => by
    have hd : d ≠ c := fun e => h (by simp [← e])
    have := until_append v t (fun hm => h (List.mem_cons_of_mem _ hm))
    simp [until?, hd, this]

theorem after_append (pre t : Str) : after? pre (pre ++ t) = some t := by
  have : pre.isPrefixOf (pre ++ t) = true := by simp
  simp [after?, this]

theorem readLink_href (b a : Str) (hb : Quotable b) (ha : Quotable a) : readLink (hrefFormat b a) = some (b, b, a) := by
  have e : hrefFormat b a = p!"<a href=\"" ++ (b ++ '"' :: (p!"><img src=\"" ++ (b ++ '"' ::
      (p!" width=\"150\" height=\"75\" alt=\"" ++ (a ++ '"' :: p!"/></a>"))))) := by
    simp [hrefFormat]
  unfold readLink
  rw [e, after_append]
  simp only [Option.bind_eq_bind, Option.bind_some, until_append _ _ hb.2, after_append, until_append _ _ ha.2, if_true]

theorem readProblem_item (k n : Str) (hk : '<' ∉ k) (hn : '<' ∉ n) :
    readProblem (p!"    <li>" ++ ((p!"<b>" ++ k ++ p!"</b>") ++ (p!": <tt>#S " ++ n ++ p!"</tt>")) ++ p!"</li>") = some (k, n) := by
  have e : p!"    <li>" ++ ((p!"<b>" ++ k ++ p!"</b>") ++ (p!": <tt>#S " ++ n ++ p!"</tt>")) ++ p!"</li>" =
      p!"    <li><b>" ++ (k ++ '<' :: (p!"/b>: <tt>#S " ++ (n ++ '<' :: p!"/tt></li>"))) := by simp
  unfold readProblem
  rw [e, after_append]
  simp only [Option.bind_eq_bind, Option.bind_some, until_append _ _ hk, after_append, until_append _ _ hn, if_true]

theorem readHeading_of (m : Nat) (what other : Str) :
    readHeading what (p!"    <h2>" ++ natStr m ++ (' ' :: other)) = if other = what then some (natStr m) else none := by
  have hs : ' ' ∉ natStr m := fun h => by
    have := natStr_not_space m _ h
    revert this
    decide
  unfold readHeading
  rw [List.append_assoc, after_append]
  simp only [Option.bind_eq_bind, Option.bind_some, until_append _ _ hs]

/-- lines at which the first lines of the page, and others, are not taken for links, problems or headings -/
theorem after_head {c d : Char} (h : c ≠ d) (p t : Str) : after? (c :: p) (d :: t) = none := by
  simp [after?, h]

theorem readLink_none {l : Str} (h : l.head? ≠ some '<') : readLink l = none := by
  unfold readLink
  cases l with
  | nil => rfl
  | cons d t =>
    have : '<' ≠ d := fun e => h (by simp [← e])
    rw [after_head this]
    rfl

theorem readProblem_none {l : Str} (h : after? p!"    <li><b>" l = none) : readProblem l = none := by
  unfold readProblem
  rw [h]
  rfl

theorem readHeading_none {what l : Str} (h : after? p!"    <h2>" l = none) : readHeading what l = none := by
  unfold readHeading
  rw [h]
  rfl

theorem top_none (h : Host) (f : Str) : ∀ l ∈ topLines h f, readLink l = none ∧ after? p!"    <li><b>" l = none ∧
    after? p!"    <h2>" l = none := by
  intro l hl
  simp only [topLines, List.mem_cons, List.not_mem_nil, or_false] at hl
  rcases hl with rfl | hl
  · exact ⟨by decide, by decide, by decide⟩
  rcases hl with rfl | rfl | rfl | rfl | rfl | rfl | rfl | rfl | rfl | rfl | rfl | rfl | rfl | rfl | rfl | rfl | rfl <;>
    exact ⟨readLink_none (by intro e; cases e), rfl, rfl⟩

theorem end_none (h : Host) : ∀ l ∈ endLines h, readLink l = none ∧ after? p!"    <li><b>" l = none ∧
    after? p!"    <h2>" l = none := by
  intro l hl
  simp only [endLines, List.mem_cons, List.not_mem_nil, or_false] at hl
  rcases hl with rfl | rfl | rfl | rfl | rfl | rfl
  all_goals first
    | exact ⟨by decide, by decide, by decide⟩
    | exact ⟨readLink_none (by intro e; cases e), rfl, rfl⟩

theorem filterMap_none' {α β : Type} {f : α → Option β} {l : List α} (h : ∀ x ∈ l, f x = none) : l.filterMap f = [] :=
  List.filterMap_eq_nil_iff.2 h

theorem filterMap_map' {α β γ : Type} {g : α → β} {f : β → Option γ} {k : α → γ} {l : List α}
    (h : ∀ x ∈ l, f (g x) = some (k x)) : (l.map g).filterMap f = l.map k := by
  induction l with
  | nil => rfl
  | cons a t ih =>
    simp only [List.map_cons, List.filterMap_cons, h a List.mem_cons_self]
    rw [ih fun x hx => h x (List.mem_cons_of_mem _ hx)]

theorem baseName_nl {f : Str} (h : '\n' ∉ f) : '\n' ∉ baseName f := fun hm => h (List.mem_of_mem_drop hm)

theorem natStr_not {c : Char} (hc : isDig c = false) (n : Nat) : c ∉ natStr n := fun h => by
  rw [natStr_isDig n c h] at hc
  cases hc

theorem intStr_nl (i : Int) : '\n' ∉ intStr i := by
  cases i with
  | ofNat n => exact natStr_not (by decide) n
  | negSucc n =>
    intro h
    rcases List.mem_cons.1 h with h | h
    · revert h; decide
    · exact natStr_not (by decide) _ h

theorem top_nl {h : Host} (hp : HostPlain h) {f : Str} (hf : '\n' ∉ f) : ∀ l ∈ topLines h f, '\n' ∉ l := by
  intro l hl
  have hb := baseName_nl hf
  simp only [topLines, List.mem_cons, List.not_mem_nil, or_false] at hl
  rcases hl with rfl | rfl | rfl | rfl | rfl | rfl | rfl | rfl | rfl | rfl | rfl | rfl | rfl | rfl | rfl | rfl | rfl | rfl <;>
    simp [hb, hf, hp.program, hp.date, hp.workstation, hp.username, hp.version, intStr_nl]

theorem end_nl {h : Host} (hp : HostPlain h) : ∀ l ∈ endLines h, '\n' ∉ l := by
  intro l hl
  simp only [endLines, List.mem_cons, List.not_mem_nil, or_false] at hl
  rcases hl with rfl | rfl | rfl | rfl | rfl | rfl
  · simp
  · simp
  · have : '\n' ∉ docUrl := by decide
    simp [hp.now, this]
  all_goals simp

theorem problem_nl {ps : List Str} (hp : ∀ p ∈ ps, '\n' ∉ p) : ∀ l ∈ problemLines ps, '\n' ∉ l := by
  intro l hl
  unfold problemLines at hl
  split at hl
  · cases hl
  · simp only [List.mem_append, List.mem_cons, List.not_mem_nil, or_false, List.mem_map] at hl
    have := natStr_not (c := '\n') (by decide) ps.length
    rcases hl with ((rfl | rfl | rfl) | ⟨a, ha, rfl⟩) | rfl
    · simp [this]
    · simp
    · simp
    · simp [hp a ha]
    · simp

theorem link_nl {ls : List Str} (hp : ∀ p ∈ ls, '\n' ∉ p) : ∀ l ∈ linkLines ls, '\n' ∉ l := by
  intro l hl
  unfold linkLines at hl
  split at hl
  · simp_all
  · exact hp l hl

theorem href_nl {b a : Str} (hb : Quotable b) (ha : Quotable a) : '\n' ∉ hrefFormat b a := by
  simp [hrefFormat, hb.1, ha.1]

theorem problemText_nl {h : Host} (hp : HostPlain h) (e : PyErr) {n : Str} (hn : '\n' ∉ n) : '\n' ∉ problemText h e n := by
  simp [problemText, (hp.classes e).1, hn]

/-- the lines of the page -/
theorem page_lines {h : Host} (hp : HostPlain h) {i : Index} (hi : PagePlain i) : pageLines (i.html h) =
    topLines h i.specFile ++ problemLines (i.problems.map fun p => problemText h p.1 p.2) ++
      [[], p!"    <h2>" ++ natStr i.plotted.length ++ p!" plotted scan(s)</h2>", []] ++
      linkLines (i.plotted.map fun p => hrefFormat p.1 p.2) ++ endLines h ++ [[]] := by
  unfold pageLines Index.html
  rw [html_lines, splitC_linesText, List.length_map]
  intro l hl
  simp only [List.mem_append] at hl
  rcases hl with (((hl | hl) | hl) | hl) | hl
  · exact top_nl hp hi.file l hl
  · refine problem_nl (fun p hpm => ?_) l hl
    obtain ⟨a, ha, rfl⟩ := List.mem_map.1 hpm
    exact problemText_nl hp _ (hi.problems a ha).1
  · simp only [List.mem_cons, List.not_mem_nil, or_false] at hl
    have := natStr_not (c := '\n') (by decide) i.plotted.length
    rcases hl with rfl | rfl | rfl <;> simp [this]
  · refine link_nl (fun p hpm => ?_) l hl
    obtain ⟨a, ha, rfl⟩ := List.mem_map.1 hpm
    exact href_nl (hi.plots a ha).1 (hi.plots a ha).2
  · exact end_nl hp l hl

/-- a link is no problem and no heading -/
theorem link_other (ls : List (Str × Str)) : ∀ l ∈ linkLines (ls.map fun p => hrefFormat p.1 p.2),
    after? p!"    <li><b>" l = none ∧ after? p!"    <h2>" l = none := by
  intro l hl
  unfold linkLines at hl
  split at hl
  · simp only [List.mem_cons, List.not_mem_nil, or_false] at hl
    subst hl
    exact ⟨rfl, rfl⟩
  · obtain ⟨a, -, rfl⟩ := List.mem_map.1 hl
    exact ⟨rfl, rfl⟩

theorem heads_plots (what : Str) (m : Nat) :
    [[], p!"    <h2>" ++ natStr m ++ p!" plotted scan(s)</h2>", []].filterMap (readHeading what) =
      if p!"plotted scan(s)</h2>" = what then [natStr m] else [] := by
  have h1 := readHeading_of m what p!"plotted scan(s)</h2>"
  have h2 : readHeading what [] = none := rfl
  simp only [List.filterMap_cons, List.filterMap_nil, h2]
  rw [h1]
  by_cases he : p!"plotted scan(s)</h2>" = what
  · rw [if_pos he, if_pos he]
  · rw [if_neg he, if_neg he]

theorem heads_problem (what : Str) (h : Host) (ps : List (PyErr × Str)) :
    (problemLines (ps.map fun p => problemText h p.1 p.2)).filterMap (readHeading what) =
      if p!"scan(s) with plotting problems</h2>" = what ∧ ps ≠ [] then [natStr ps.length] else [] := by
  unfold problemLines
  split
  · next e =>
    have : ps = [] := List.map_eq_nil_iff.1 e
    simp [this]
  · next hne =>
    have hn : ps ≠ [] := fun e => hne (by rw [e]; rfl)
    have h1 := readHeading_of ps.length what p!"scan(s) with plotting problems</h2>"
    have h2 : readHeading what [] = none := rfl
    have h3 : readHeading what p!"    <ul>" = none := readHeading_none rfl
    have h4 : readHeading what p!"    </ul>" = none := readHeading_none rfl
    have h5 : ((ps.map fun p => problemText h p.1 p.2).map fun item => p!"    <li>" ++ item ++ p!"</li>").filterMap (readHeading what) = [] := by
      refine filterMap_none' fun l hl => readHeading_none ?_
      obtain ⟨a, -, rfl⟩ := List.mem_map.1 hl
      rfl
    simp only [List.filterMap_append, h5, List.filterMap_cons, List.filterMap_nil, h2, h3, h4, List.length_map]
    rw [h1]
    by_cases he : p!"scan(s) with plotting problems</h2>" = what
    · rw [if_pos he, if_pos ⟨he, hn⟩]; rfl
    · rw [if_neg he, if_neg (fun hc => he hc.1)]; rfl

/-- **C101**: whoever reads the index page finds one link for each plot, in the order of the page, to the image of the plot,
which the link shows with its text; one item for each scan with a problem, in order, with the kind of the error
and the number of the scan; and the headings tell how many there are of each. -/
theorem C101_tells (h : Host) (hp : HostPlain h) (i : Index) (hi : PagePlain i) : Tells h.className (i.html h) i := by
  have hl := page_lines hp hi
  have top := top_none h i.specFile
  have fin := end_none h
  have oth := link_other i.plotted
  refine ⟨?_, ?_, ?_, ?_⟩ <;> rw [hl] <;> simp only [List.filterMap_append]
  · have h2 : (problemLines (i.problems.map fun p => problemText h p.1 p.2)).filterMap readLink = [] := by
      refine filterMap_none' fun l hl => readLink_none ?_
      unfold problemLines at hl
      split at hl
      · cases hl
      · simp only [List.mem_append, List.mem_cons, List.not_mem_nil, or_false, List.mem_map] at hl
        rcases hl with ((rfl | rfl | rfl) | ⟨a, ha, rfl⟩) | rfl <;> (intro e; cases e)
    have h3 : (linkLines (i.plotted.map fun p => hrefFormat p.1 p.2)).filterMap readLink =
        i.plotted.map fun p => (p.1, p.1, p.2) := by
      unfold linkLines
      split
      · next e => rw [List.map_eq_nil_iff.1 e]; rfl
      · exact filterMap_map' fun p hpm => readLink_href _ _ (hi.plots p hpm).1 (hi.plots p hpm).2
    have h4 : [[], p!"    <h2>" ++ natStr i.plotted.length ++ p!" plotted scan(s)</h2>", []].filterMap readLink = [] := by
      refine filterMap_none' fun l hl => readLink_none ?_
      simp only [List.mem_cons, List.not_mem_nil, or_false] at hl
      rcases hl with rfl | rfl | rfl <;> (intro e; cases e)
    rw [filterMap_none' fun l hl => (top l hl).1, filterMap_none' fun l hl => (fin l hl).1, h2, h3, h4]
    simp [readLink, after?]
  · have h2 : (problemLines (i.problems.map fun p => problemText h p.1 p.2)).filterMap readProblem =
        i.problems.map fun p => (h.className p.1, p.2) := by
      unfold problemLines
      split
      · next e => rw [List.map_eq_nil_iff.1 e]; rfl
      · have h5 : ((i.problems.map fun p => problemText h p.1 p.2).map fun item => p!"    <li>" ++ item ++ p!"</li>").filterMap
            readProblem = i.problems.map fun p => (h.className p.1, p.2) := by
          rw [List.map_map]
          exact filterMap_map' fun p hpm => readProblem_item (h.className p.1) p.2 (hp.classes p.1).2 (hi.problems p hpm).2
        simp only [List.filterMap_append, h5]
        rw [filterMap_none' (l := [_, _, _]), filterMap_none' (l := [_])]
        · simp
        · intro l hl
          simp only [List.mem_cons, List.not_mem_nil, or_false] at hl
          subst hl
          exact readProblem_none rfl
        · intro l hl
          simp only [List.mem_cons, List.not_mem_nil, or_false] at hl
          rcases hl with rfl | rfl | rfl <;> exact readProblem_none rfl
    have h4 : [[], p!"    <h2>" ++ natStr i.plotted.length ++ p!" plotted scan(s)</h2>", []].filterMap readProblem = [] := by
      refine filterMap_none' fun l hl => readProblem_none ?_
      simp only [List.mem_cons, List.not_mem_nil, or_false] at hl
      rcases hl with rfl | rfl | rfl <;> rfl
    rw [filterMap_none' fun l hl => readProblem_none (top l hl).2.1, filterMap_none' fun l hl => readProblem_none (fin l hl).2.1,
      h2, h4, filterMap_none' fun l hl => readProblem_none (oth l hl).1]
    simp [readProblem, after?]
  · rw [heads_problem, filterMap_none' fun l hl => readHeading_none (top l hl).2.2,
      filterMap_none' fun l hl => readHeading_none (fin l hl).2.2, filterMap_none' fun l hl => readHeading_none (oth l hl).2,
      heads_plots]
    simp [readHeading, after?]
  · rw [heads_problem, filterMap_none' fun l hl => readHeading_none (top l hl).2.2,
      filterMap_none' fun l hl => readHeading_none (fin l hl).2.2, filterMap_none' fun l hl => readHeading_none (oth l hl).2,
      heads_plots]
    by_cases he : i.problems = [] <;> simp [readHeading, after?, he]

/-- **C101**: the page links to the copy of the data file beside it and shows the path of the file. -/
theorem C101_source (h : Host) (hp : HostPlain h) (i : Index) (hi : PagePlain i) (hq : '\'' ∉ baseName i.specFile)
    (hl : '<' ∉ i.specFile) : (baseName i.specFile, i.specFile) ∈ (pageLines (i.html h)).filterMap readSource := by
  rw [page_lines hp hi]
  refine List.mem_filterMap.2 ⟨p!"    spec file: " ++ (p!"<a href='" ++ baseName i.specFile ++ p!"'>" ++ i.specFile ++ p!"</a>"),
    ?_, ?_⟩
  · simp only [List.mem_append]
    exact .inl (.inl (.inl (.inl (.inl (by simp [topLines])))))
  · have e : p!"    spec file: " ++ (p!"<a href='" ++ baseName i.specFile ++ p!"'>" ++ i.specFile ++ p!"</a>") =
        p!"    spec file: <a href='" ++ (baseName i.specFile ++ '\'' :: (p!">" ++ (i.specFile ++ '<' :: p!"/a>"))) := by simp
    unfold readSource
    rw [e, after_append]
    simp only [Option.bind_eq_bind, Option.bind_some, until_append _ _ hq, after_append, until_append _ _ hl, if_true]

/-- **C101**: pages with the same text show the same plots with the same texts, and the same problems. -/
theorem C101_same (h : Host) (hp : HostPlain h) (i j : Index) (hi : PagePlain i) (hj : PagePlain j)
    (he : i.html h = j.html h) : i.plotted = j.plotted ∧
      i.problems.map (fun p => (h.className p.1, p.2)) = j.problems.map (fun p => (h.className p.1, p.2)) := by
  have t1 := C101_tells h hp i hi
  have t2 := C101_tells h hp j hj
  rw [he] at t1
  constructor
  · have := t1.links.symm.trans t2.links
    have := congrArg (List.map fun (p : Str × Str × Str) => (p.1, p.2.2)) this
    simpa [List.map_map, Function.comp_def] using this
  · exact t1.problems.symm.trans t2.problems

theorem sliceFrom_sub (o : Option Nat) (t : Str) : ∀ c ∈ sliceFrom o t, c ∈ t := by
  intro c hc
  unfold sliceFrom at hc
  split at hc <;> first | exact List.mem_of_mem_drop hc | exact List.mem_of_mem_take hc | skip

section
variable [UniDB] {env : Env} {reg : List HKey} {cfg : Cfg}

/-- the command of a scan of a file has no line ends -/
theorem open_command_nl (hr : reg.Perm HKey.all) {name : Str} {f stat : FileSt} {s : Sdf}
    (h : Sdf.openFile env reg name f stat = .ok s) : ∀ p ∈ s.scans, '\n' ∉ p.2.scanCmd := by
  intro p hp hc
  obtain ⟨h1, h2⟩ := open_titles hr h p hp
  rw [h2] at hc
  have hc := sliceFrom_sub _ _ _ (mem_of_mem_strip hc)
  rw [h1] at hc
  have hc := mem_of_mem_strip (sliceFrom_sub _ _ _ (mem_of_mem_strip hc))
  unfold headline at hc
  cases hs : splitlines p.2.raw with
  | nil => rw [hs] at hc; cases hc
  | cons l ls =>
    rw [hs] at hc
    have := splitlines_no_break p.2.raw l (by rw [hs]; exact List.mem_cons_self) _ hc
    revert this
    decide

theorem plotName_quotable {n : Str} (h1 : '\n' ∉ n) (h2 : '"' ∉ n) (hs : ' ' ∉ n) : Quotable (plotName n) := by
  rw [C52_name n hs]
  constructor <;> simp [h1, h2, List.mem_replicate]

/-- the page of a file of which the scans have plain names and commands is plain -/
theorem isPage_plain (hr : reg.Perm HKey.all) {fname content path : Str} {sdf : Sdf}
    (G : Galleried env reg cfg fname content sdf path) (hq : PlainScans sdf.scans) (hf : '\n' ∉ fname)
    {after : Str → Obj} {out : Str → Out} {d : Disk} {page : Index} (h : IsPage cfg fname path sdf.scans after out d page) :
    PagePlain page := by
  obtain ⟨numbers, order, h1, h2, -, h3, h4, h5⟩ := h
  have hm : ∀ n ∈ numbers, n ∈ sdf.scans.keys := fun n hn => h1.perm.mem_iff.1 hn
  have hx : ∀ n ∈ sdf.scans.keys, ∃ x, (n, x) ∈ sdf.scans ∧ sdf.scans.get? n = some x := by
    intro n hn
    cases hg : sdf.scans.get? n with
    | none => exact absurd hn ((Dict.get?_eq_none_iff _ _).1 hg)
    | some x => exact ⟨x, Dict.mem_of_get? hg, rfl⟩
  refine ⟨h3 ▸ hf, ?_, ?_⟩
  · intro p hp
    rw [h4] at hp
    obtain ⟨n, hn, rfl⟩ := List.mem_map.1 hp
    have hk := hm n (h2.mem_iff.1 (List.mem_filter.1 hn).1)
    obtain ⟨x, hxm, hxe⟩ := hx n hk
    obtain ⟨⟨a, b, -⟩, c⟩ := hq n x hxm
    refine ⟨plotName_quotable a b (G.names n hk).2.noSpace, ?_⟩
    have e := open_command_nl hr G.opened _ hxm
    simp only [hxe, Option.map_some, Option.getD_some]
    constructor <;> simp [a, b, c, e]
  · intro p hp
    rw [h5] at hp
    obtain ⟨n, hn, he⟩ := List.mem_filterMap.1 hp
    obtain ⟨e, -, rfl⟩ := Option.map_eq_some_iff.1 he
    obtain ⟨x, hxm, -⟩ := hx n (hm n hn)
    exact ⟨(hq n x hxm).1.1, (hq n x hxm).1.2.2⟩

/-- **C101**: a run for a file that counts as updated, in which some scan was plotted or which finds no page, leaves an
index page whose text tells, to whoever reads it, of the plots that exist, in the order of the times of the scans, each
with a link to the plot and the number and the command of the scan; and of the scans that failed. -/
theorem C101_run (hr : reg.Perm HKey.all) {fname content path : Str} {sdf : Sdf}
    (G : Galleried env reg cfg fname content sdf path) (s : GS) (m z : Int) (hh : Spec.Holds cfg s.disk fname m z)
    (hu : (cfg.files fname).mtime ≠ m ∧ (cfg.files fname).size ≠ z) (hd : s.disk.keys.Nodup)
    (hq : PlainScans sdf.scans) (hf : '\n' ∉ fname) (h : Host) (hp : HostPlain h) :
    ∃ (out : Str → Out) (after : Str → Obj),
      (∀ n x, (n, x) ∈ sdf.scans →
        Spec.Outcome env reg cfg fname path (universalNewlines content) s.disk z s.sel n x (out n) (after n)) ∧
      (((∃ n ∈ sdf.scans.keys, Out.fine (out n) = true) ∨ s.disk.get? (pathJoin path indexName) = none) →
        (∀ n ∈ sdf.scans.keys, (after n).epoch ≠ none) →
        ∃ page, (plotAllScans env reg cfg fname s).1.disk.get? (pathJoin path indexName) = some (.index (some page)) ∧
          IsPage cfg fname path sdf.scans after out (plotAllScans env reg cfg fname s).1.disk page ∧
          Tells h.className (page.html h) page) := by
  obtain ⟨out, after, h1, -, h3, -⟩ := C72_page hr G s m z hh hu hd
  refine ⟨out, after, h1, fun ha hb => ?_⟩
  obtain ⟨-, page, hpg, hip⟩ := h3 ha hb
  exact ⟨page, hpg, hip, C101_tells h hp page (isPage_plain hr G hq hf hip)⟩

end

/-- a machine for the examples -/
def demoHost : Host where
  program := p!"specplot_gallery.py"
  date := p!"2026-11-18 12:00:00"
  workstation := p!"beamline"
  username := p!"user"
  version := p!"2021.1.8"
  pid := 4711
  now := p!"2026-11-18 12:00:00.123456"
  className := fun e => match e with | .NotPlottable => p!"NotPlottable" | .ValueError => p!"ValueError" | _ => p!"Exception"

/-- a page for the examples -/
def demoPage : Index := ⟨p!"/data/demo.dat",
  [(p!"s00001.svg", p!"#1: ascan  a 0 1 1 1"), (p!"s00003.svg", p!"#3: ascan  a < b > c & 'd'")], [(.NotPlottable, p!"2"), (.ValueError, p!"4.1")]⟩

/-- C101: a machine and a page that meet the hypotheses; its first lines, and the links and problems that are read. -/
theorem C101_nonvacuous : HostPlain demoHost ∧ PagePlain demoPage ∧
    (pageLines (demoPage.html demoHost)).length = 36 ∧
    (pageLines (demoPage.html demoHost)).filterMap readLink =
      [(p!"s00001.svg", p!"s00001.svg", p!"#1: ascan  a 0 1 1 1"), (p!"s00003.svg", p!"s00003.svg", p!"#3: ascan  a < b > c & 'd'")] ∧
    (pageLines (demoPage.html demoHost)).filterMap readProblem = [(p!"NotPlottable", p!"2"), (p!"ValueError", p!"4.1")] := by
  refine ⟨⟨by decide, by decide, by decide, by decide, by decide, by decide, ?_⟩, ⟨by decide, ?_, ?_⟩, ?_, ?_, ?_⟩
  · intro e
    cases e <;> decide
  · unfold Quotable; decide
  · decide
  · decide +kernel
  · decide +kernel
  · decide +kernel

/-- C101: the file of the examples of the gallery meets the hypotheses of `C101_run`. -/
theorem C101_run_nonvacuous : ∃ sdf, @Galleried asciiDB galleryEnv HKey.all (galCfg galText 5) p!"/data/demo.dat" galText sdf galDir ∧
    PlainScans sdf.scans := by
  obtain ⟨sdf, G, -⟩ := galleried_demo
  refine ⟨sdf, G, ?_⟩
  have h : (match galSdf galText 5 with
    | .ok s => s.scans.all fun p => decide (('\n' ∉ p.1 ∧ '"' ∉ p.1 ∧ '<' ∉ p.1) ∧ '"' ∉ p.2.scanCmd)
    | .error _ => false) = true := by decide +kernel
  have ho : galSdf galText 5 = .ok sdf := @Galleried.opened asciiDB _ _ _ _ _ _ _ G
  rw [ho] at h
  intro n x hx
  have := List.all_eq_true.1 h (n, x) hx
  exact of_decide_eq_true this

theorem until_split {c : Char} : ∀ (t : Str), c ∈ t → ∃ v r, t = v ++ c :: r ∧ c ∉ v
  | [], h => by cases h
  | d :: t, h => by
    by_cases hd : d = c
    · exact ⟨[], t, by simp [hd], by simp⟩
    · obtain ⟨v, r, e, hv⟩ := until_split t ((List.mem_cons.1 h).resolve_left (Ne.symm hd))
      exact ⟨d :: v, r, by simp [e], fun hm => (List.mem_cons.1 hm).elim (fun e => hd e.symm) hv⟩

/-- **C101**, what goes wrong: a quote in the command of a scan is written as it is, so that the text of the link ends
there; what follows is neither text nor mark, and the line is not such a link. -/
theorem C101_quote (b alt : Str) (hb : Quotable b) (ha : '"' ∈ alt) : readLink (hrefFormat b alt) = none := by
  obtain ⟨v, r, rfl, hv⟩ := until_split alt ha
  have e : hrefFormat b (v ++ '"' :: r) = p!"<a href=\"" ++ (b ++ '"' :: (p!"><img src=\"" ++ (b ++ '"' ::
      (p!" width=\"150\" height=\"75\" alt=\"" ++ (v ++ '"' :: (r ++ p!"\"/></a>")))))) := by
    simp [hrefFormat]
  have hne : r ++ p!"\"/></a>" ≠ p!"/></a>" := by
    intro he
    have := congrArg List.length he
    simp at this
  unfold readLink
  rw [e, after_append]
  simp only [Option.bind_eq_bind, Option.bind_some, until_append _ _ hb.2, after_append, until_append _ _ hv, if_neg hne]

end S2N.Props

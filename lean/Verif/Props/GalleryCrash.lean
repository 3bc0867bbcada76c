import Verif.Props.GalleryRun
import Verif.Props.MeshPlot
/-
Properties C51, C71, C72, C73: the gallery when it is run again, also after it was killed
-/
namespace S2N.Props
open S2N Py Spec Gallery Plot

section
variable [UniDB] {env : Env} {reg : List HKey} {cfg : Cfg}

theorem makePlot_steps {P : Str → Prop} (w : Want) (s : Loop) (h : P w.full) :
    Steps P s.gs (makePlot env reg cfg w s).1.gs := by
  unfold makePlot
  split
  · exact .rfl'
  · simp only
    split
    · exact Steps.sel .rfl'
    · split
      · exact Steps.sel .rfl'
      · exact Steps.sel .rfl'
      · split
        · exact Steps.sel .rfl'
        · exact Steps.trans (s' := { s.gs with sel := _ }) (Steps.sel .rfl') (Steps.write _ _ _ h)

theorem plotOne_steps {P : Str → Prop} (existing : List Str) (w : Want) (s : Loop) (h : P w.full) :
    Steps P s.gs (plotOne env reg cfg existing s w).gs := by
  have := makePlot_steps (env := env) (reg := reg) (cfg := cfg) w s h
  unfold plotOne
  split
  · exact .rfl'
  · rcases hm : makePlot env reg cfg w s with ⟨s', _ | e⟩ <;> rw [hm] at this <;> exact this

theorem loop_steps {P : Str → Prop} (existing : List Str) : ∀ (ws : List Want) (s : Loop), (∀ w ∈ ws, P w.full) →
    Steps P s.gs (ws.foldl (plotOne env reg cfg existing) s).gs
  | [], _, _ => .rfl'
  | w :: ws, s, h => by
    rw [List.foldl_cons]
    exact (plotOne_steps existing w s (h w List.mem_cons_self)).trans
      (loop_steps existing ws _ (fun v hv => h v (List.mem_cons_of_mem _ hv)))

omit [UniDB] in
theorem finishRun_steps (fname path : Str) (ws : List Want) (L : Loop) :
    Steps (Inside path) L.gs (finishRun cfg fname path ws L).1 := by
  have h1 : Steps (Inside path) L.gs (makeIndex cfg fname path ws L).1 := by
    unfold makeIndex
    simp only
    split
    · split
      · exact .rfl'
      · exact .write _ _ _ ⟨indexName, by decide, rfl⟩
    · exact .rfl'
  have h2 : ∀ s, Steps (Inside path) s (copyFile cfg fname path s) := by
    intro s
    have hi : Inside path (pathJoin path (baseName fname)) := ⟨_, baseName_slash fname, rfl⟩
    unfold copyFile
    simp only
    split
    · split
      · exact .write _ _ _ hi
      · exact .rfl'
    · exact .write _ _ _ hi
  unfold finishRun
  rcases hm : makeIndex cfg fname path ws L with ⟨s', _ | e⟩ <;> rw [hm] at h1
  · exact h1.trans (h2 s')
  · exact h1

theorem replot_steps {fname path : Str} {sdf : Sdf} {ws : List Want} {old new : Int × Int} {s : GS}
    (h : ∀ w ∈ ws, Inside path w.full) :
    Steps (Inside path) s (replot env reg cfg fname path sdf ws old new s).1 := by
  have h1 := removeStale_steps cfg fname path old new s
  unfold replot
  rcases hm : removeStale cfg fname path old new s with ⟨s', e | existing⟩ <;> rw [hm] at h1
  · exact h1
  · refine h1.trans (Steps.trans (loop_steps (env := env) (reg := reg) (cfg := cfg) existing ws { gs := s', sdf := sdf } h) ?_)
    exact finishRun_steps fname path ws _

theorem wants_inside {fname content path : Str} {sdf : Sdf} (G : Galleried env reg cfg fname content sdf path)
    {l : List Str} (hl : l.Perm sdf.scans.keys) : ∀ w ∈ l.map (wantOf path sdf.scans), Inside path w.full := by
  intro w hw
  obtain ⟨n, hn, rfl⟩ := List.mem_map.1 hw
  exact ⟨plotName n, plotName_slash (G.names n (hl.mem_iff.1 hn)).2, rfl⟩


theorem plotAllScans_unreadable (hr : reg.Perm HKey.all) {fname content path : Str} {sdf : Sdf}
    (G : Galleried env reg cfg fname content sdf path) (s : GS) (e : PyErr)
    (hh : readCache cfg s.disk = .error e) : plotAllScans env reg cfg fname s = (makeDir path s, some e) := by
  obtain ⟨l, -, h2, h3, h4⟩ := wanted_ok hr G
  have hd := G.dir
  have hne := path_ne_cache hd
  unfold plotAllScans
  rw [← G.file] at hd
  have hc : readCache cfg (makeDir path s).disk = .error e := by
    rw [← hh]
    unfold readCache
    rw [makeDir_disk path s _ (Ne.symm hne)]
  simp only [open_isSpecFile G.opened, Bool.true_eq_false, if_false, G.opened, if_neg G.headers, hd, h4, hc]

omit [UniDB] in
theorem makeDir_past (path : Str) (s : GS) :
    ∃ new, (makeDir path s).past = s.past ++ new ∧ ∀ d ∈ s.disk :: new, d = s.disk ∨ d = (makeDir path s).disk := by
  unfold makeDir
  split
  · exact ⟨[], by simp, by simp⟩
  · exact ⟨[s.disk.set path .dir], rfl, by simp [GS.to]⟩

/-- the states that a run leaves if it is killed: (1) nothing but the directory was made, (2) the cache is
empty, (3) the cache holds the present time and size, and only things in the directory were changed -/
theorem left_phases (hr : reg.Perm HKey.all) {fname content path : Str} {sdf : Sdf}
    (G : Galleried env reg cfg fname content sdf path) (s : GS) (m z : Int) (hh : Holds cfg s.disk fname m z)
    (d : Disk) (hd : LeftBy env reg cfg fname s d) :
    (d = s.disk ∨ d = (makeDir path s).disk) ∨
    ((cfg.files fname).mtime ≠ m ∧ (cfg.files fname).size ≠ z) ∧
      (d = (makeDir path s).disk.set (cachePath cfg) (.cache none) ∨
        ∀ p, ¬ Inside path p → d.get? p = (wasFileUpdated cfg fname (makeDir path s)).1.disk.get? p) := by
  obtain ⟨new, e, hm⟩ := hd
  obtain ⟨a, ea, ha⟩ := makeDir_past path s
  by_cases hu : (cfg.files fname).mtime ≠ m ∧ (cfg.files fname).size ≠ z
  · obtain ⟨l, hl, -, hrun⟩ := plotAllScans_updated hr G s m z hh hu
    rw [hrun] at e
    obtain ⟨b, eb, -, hb⟩ := replot_steps (env := env) (reg := reg) (cfg := cfg) (fname := fname) (sdf := sdf) (old := (m, z))
      (new := ((cfg.files fname).mtime, (cfg.files fname).size))
      (s := (wasFileUpdated cfg fname (makeDir path s)).1) (wants_inside G hl)
    have hh' : Holds cfg (makeDir path s).disk fname m z :=
      holds_congr hh (makeDir_disk path s _ (Ne.symm (path_ne_cache G.dir)))
    obtain ⟨c, hc, hg⟩ := readCache_holds hh'
    have hw : (wasFileUpdated cfg fname (makeDir path s)).1 =
        (makeDir path s).write (cachePath cfg) (.cache none)
          (.cache (some (c.set fname ((cfg.files fname).mtime, (cfg.files fname).size)))) := by
      unfold wasFileUpdated
      rw [hc]
      simp only [hg, if_pos hu]
    have hp : (wasFileUpdated cfg fname (makeDir path s)).1.past = (makeDir path s).past ++
        [(makeDir path s).disk.set (cachePath cfg) (.cache none), (wasFileUpdated cfg fname (makeDir path s)).1.disk] := by
      rw [hw]
      simp [GS.write, GS.to]
    rw [eb, hp, ea, List.append_assoc, List.append_assoc] at e
    have e := List.append_cancel_left e
    rw [← e] at hm
    simp only [List.mem_cons, List.mem_append, List.not_mem_nil, or_false] at hm
    rcases hm with h | h | (h | h) | h
    · exact .inl (.inl h)
    · exact .inl (ha d (List.mem_cons_of_mem _ h))
    · exact .inr ⟨hu, .inl h⟩
    · exact .inr ⟨hu, .inr (fun p _ => by rw [h])⟩
    · exact .inr ⟨hu, .inr (hb d h)⟩
  · rw [plotAllScans_same hr G s m z hh hu, ea] at e
    rw [← List.append_cancel_left e] at hm
    exact .inl (ha d hm)

/-- **C73**: a run for a file changes nothing but the cache of file times, the gallery directory of the file
and what is in this directory, and this is so at any time of the run. -/
theorem C73_only_own_directory (hr : reg.Perm HKey.all) {fname content path : Str} {sdf : Sdf}
    (G : Galleried env reg cfg fname content sdf path) (s : GS)
    (d : Disk) (hd : LeftBy env reg cfg fname s d) (p : Str) (h1 : p ≠ cachePath cfg) (h2 : p ≠ path)
    (h3 : ¬ ∃ name, '/' ∉ name ∧ p = pathJoin path name) : d.get? p = s.disk.get? p := by
  cases hc : readCache cfg s.disk with
  | error e =>
    obtain ⟨new, e', hm⟩ := hd
    obtain ⟨a, ea, ha⟩ := makeDir_past path s
    rw [plotAllScans_unreadable hr G s e hc, ea] at e'
    rw [← List.append_cancel_left e'] at hm
    rcases ha d hm with rfl | rfl
    · rfl
    · exact makeDir_disk path s p h2
  | ok c =>
    have hh := holds_of_read fname hc
    rcases left_phases hr G s _ _ hh d hd with (rfl | rfl) | ⟨hu, rfl | h⟩
    · rfl
    · exact makeDir_disk path s p h2
    · rw [Dict.get?_set_ne _ _ (Ne.symm h1), makeDir_disk path s p h2]
    · have hh' : Holds cfg (makeDir path s).disk fname _ _ :=
        holds_congr hh (makeDir_disk path s _ (Ne.symm (path_ne_cache G.dir)))
      rw [h p h3, ((C50_updated cfg fname _ _ _ hh').2.1 hu).2.2 p h1, makeDir_disk path s p h2]

/-- **C51**: if the time or the size of the file is the one in the cache, a run raises nothing and
changes nothing: at most the directory is made. -/
theorem C51_unchanged (hr : reg.Perm HKey.all) {fname content path : Str} {sdf : Sdf}
    (G : Galleried env reg cfg fname content sdf path) (s : GS) (m z : Int) (hh : Holds cfg s.disk fname m z)
    (hu : ¬ ((cfg.files fname).mtime ≠ m ∧ (cfg.files fname).size ≠ z)) :
    (plotAllScans env reg cfg fname s).2 = none ∧
    (plotAllScans env reg cfg fname s).1.disk =
      if s.disk.has path then s.disk else s.disk.set path .dir := by
  rw [plotAllScans_same hr G s m z hh hu]
  refine ⟨rfl, ?_⟩
  unfold makeDir
  split <;> rfl

/-- **C51**: a run for an updated file that is not killed leaves a plot for every scan that can be plotted. -/
theorem C51_complete (hr : reg.Perm HKey.all) {fname content path : Str} {sdf : Sdf}
    (G : Galleried env reg cfg fname content sdf path) (s : GS) (m z : Int) (hh : Holds cfg s.disk fname m z)
    (hu : (cfg.files fname).mtime ≠ m ∧ (cfg.files fname).size ≠ z) (hd : s.disk.keys.Nodup)
    (n : Str) (x : Obj) (hx : (n, x) ∈ sdf.scans)
    (hok : ∀ xs hdr, ∃ pic, attempt env reg cfg fname (asked s.sel xs) ⟨x, hdr⟩ = .ok (some pic)) :
    (plotAllScans env reg cfg fname s).1.disk.get? (pathJoin path (plotName n)) ≠ none := by
  obtain ⟨out, after, h1, -⟩ := gallery_updated hr G s m z hh hu hd
  obtain ⟨h2, h3⟩ := h1 n x hx
  rw [h3]
  by_cases hc : IsPlotFile s.disk path (plotName n) ∧
      ¬ Outdated s.disk path (universalNewlines content) z (cfg.files fname).size (plotName n)
  · rw [(h2.1 hc).1]
    exact hc.1.2.2
  · obtain ⟨xs, hdr, ho, -⟩ := h2.2 hc
    obtain ⟨pic, hp⟩ := hok xs hdr
    rw [ho, hp]
    simp [Out.file]

/-- **C51**: if the run for a file is killed at any time, then either nothing was changed but that the directory was
made, or the cache is empty, or the cache already holds the present time and size of the file. -/
theorem C51_killed (hr : reg.Perm HKey.all) {fname content path : Str} {sdf : Sdf}
    (G : Galleried env reg cfg fname content sdf path) (s : GS) (m z : Int) (hh : Holds cfg s.disk fname m z)
    (d : Disk) (hd : LeftBy env reg cfg fname s d) :
    (Holds cfg d fname m z ∧ SameBut path s.disk d) ∨ d.get? (cachePath cfg) = some (.cache none) ∨
    Holds cfg d fname (cfg.files fname).mtime (cfg.files fname).size := by
  have hne := path_ne_cache G.dir
  have hh' : Holds cfg (makeDir path s).disk fname m z := holds_congr hh (makeDir_disk path s _ (Ne.symm hne))
  rcases left_phases hr G s m z hh d hd with (rfl | rfl) | ⟨hu, rfl | h⟩
  · exact .inl ⟨hh, fun _ _ => rfl⟩
  · exact .inl ⟨hh', fun p hp => makeDir_disk path s p hp⟩
  · exact .inr (.inl (Dict.get?_set_self _ _ _))
  · refine .inr (.inr (holds_congr ((C50_updated cfg fname _ _ _ hh').2.1 hu).1 (h _ ?_)))
    exact fun hi => inside_ne_cache G.dir hi rfl

/-- **C51**: in the second case no later run plots anything: it fails and changes nothing, for every file. -/
theorem C51_stuck (hr : reg.Perm HKey.all) {fname content path : Str} {sdf : Sdf}
    (G : Galleried env reg cfg fname content sdf path) (s : GS)
    (hh : s.disk.get? (cachePath cfg) = some (.cache none)) :
    (plotAllScans env reg cfg fname s).2 = some .ValueError ∧
    SameBut path s.disk (plotAllScans env reg cfg fname s).1.disk := by
  rw [plotAllScans_torn hr G s hh]
  exact ⟨rfl, fun p hp => makeDir_disk path s p hp⟩

/-- **C51**: in the third case a later run makes none of the missing plots as long as the file stays as it is. -/
theorem C51_lost (hr : reg.Perm HKey.all) {fname content path : Str} {sdf : Sdf}
    (G : Galleried env reg cfg fname content sdf path) (s : GS)
    (hh : Holds cfg s.disk fname (cfg.files fname).mtime (cfg.files fname).size) :
    (plotAllScans env reg cfg fname s).2 = none ∧
    SameBut path s.disk (plotAllScans env reg cfg fname s).1.disk := by
  rw [plotAllScans_same hr G s _ _ hh (fun h => h.1 rfl)]
  exact ⟨rfl, fun p hp => makeDir_disk path s p hp⟩

/-- **C71**: when a file counts as updated, the plot file of each scan is kept if it existed and is not outdated;
otherwise it is what comes of plotting the scan as it was read from the file. -/
theorem C71_plots (hr : reg.Perm HKey.all) {fname content path : Str} {sdf : Sdf}
    (G : Galleried env reg cfg fname content sdf path) (s : GS) (m z : Int) (hh : Holds cfg s.disk fname m z)
    (hu : (cfg.files fname).mtime ≠ m ∧ (cfg.files fname).size ≠ z) (hd : s.disk.keys.Nodup)
    (n : Str) (x : Obj) (hx : (n, x) ∈ sdf.scans) :
    ((IsPlotFile s.disk path (plotName n) ∧
        ¬ Outdated s.disk path (universalNewlines content) z (cfg.files fname).size (plotName n)) →
      (plotAllScans env reg cfg fname s).1.disk.get? (pathJoin path (plotName n)) =
        s.disk.get? (pathJoin path (plotName n))) ∧
    (¬ (IsPlotFile s.disk path (plotName n) ∧
        ¬ Outdated s.disk path (universalNewlines content) z (cfg.files fname).size (plotName n)) →
      ∃ xs hdr, (plotAllScans env reg cfg fname s).1.disk.get? (pathJoin path (plotName n)) =
        match attempt env reg cfg fname (asked s.sel xs) ⟨x, hdr⟩ with
        | .ok (some pic) => some (.plot (some pic) cfg.now)
        | _ => none) := by
  obtain ⟨out, after, h1, -⟩ := gallery_updated hr G s m z hh hu hd
  obtain ⟨h2, h3⟩ := h1 n x hx
  rw [h3]
  constructor
  · intro hc
    rw [(h2.1 hc).1]
    rfl
  · intro hc
    obtain ⟨xs, hdr, ho, -⟩ := h2.2 hc
    refine ⟨xs, hdr, ?_⟩
    rw [ho]
    rcases attempt env reg cfg fname (asked s.sel xs) ⟨x, hdr⟩ with e | (_ | pic) <;> rfl

/-- **C71**: if the file became smaller, no plot file is kept: each is made again from the file. -/
theorem C71_smaller (hr : reg.Perm HKey.all) {fname content path : Str} {sdf : Sdf}
    (G : Galleried env reg cfg fname content sdf path) (s : GS) (m z : Int) (hh : Holds cfg s.disk fname m z)
    (hu : (cfg.files fname).mtime ≠ m) (hz : 0 < (cfg.files fname).size ∧ (cfg.files fname).size < z)
    (hd : s.disk.keys.Nodup) (n : Str) (x : Obj) (hx : (n, x) ∈ sdf.scans) :
    ∃ xs hdr, (plotAllScans env reg cfg fname s).1.disk.get? (pathJoin path (plotName n)) =
      match attempt env reg cfg fname (asked s.sel xs) ⟨x, hdr⟩ with
      | .ok (some pic) => some (.plot (some pic) cfg.now)
      | _ => none :=
  (C71_plots hr G s m z hh ⟨hu, by omega⟩ hd n x hx).2 (fun h => h.2 ⟨hz.1, .inl hz.2⟩)

/-- **C71**: if the file was only extended, and what was added begins with a new scan, every plot that existed
is kept. -/
theorem C71_new_scan (hr : reg.Perm HKey.all) {fname content path : Str} {sdf : Sdf}
    (G : Galleried env reg cfg fname content sdf path) (s : GS) (m z : Int) (hh : Holds cfg s.disk fname m z)
    (hu : (cfg.files fname).mtime ≠ m) (hz : z < (cfg.files fname).size)
    (hnew : NewScanNext (universalNewlines content) z.toNat)
    (hd : s.disk.keys.Nodup) (n : Str) (x : Obj) (hx : (n, x) ∈ sdf.scans)
    (hp : IsPlotFile s.disk path (plotName n)) :
    (plotAllScans env reg cfg fname s).1.disk.get? (pathJoin path (plotName n)) =
      s.disk.get? (pathJoin path (plotName n)) := by
  refine (C71_plots hr G s m z hh ⟨hu, by omega⟩ hd n x hx).1 ⟨hp, ?_⟩
  rintro ⟨-, h | ⟨-, h, -⟩⟩
  · omega
  · exact h hnew

/-- **C71**: if the file was extended and the scan at its old end goes on, the plot which is the last in the order
of the names is made again, and every other plot is kept. -/
theorem C71_last (hr : reg.Perm HKey.all) {fname content path : Str} {sdf : Sdf}
    (G : Galleried env reg cfg fname content sdf path) (s : GS) (m z : Int) (hh : Holds cfg s.disk fname m z)
    (hu : (cfg.files fname).mtime ≠ m) (hz : 0 ≤ z ∧ z < (cfg.files fname).size)
    (hnew : ¬ NewScanNext (universalNewlines content) z.toNat)
    (hd : s.disk.keys.Nodup) (n : Str) (x : Obj) (hx : (n, x) ∈ sdf.scans)
    (hp : IsPlotFile s.disk path (plotName n)) :
    ((∃ other, IsPlotFile s.disk path other ∧ strLe other (plotName n) = false) →
      (plotAllScans env reg cfg fname s).1.disk.get? (pathJoin path (plotName n)) =
        s.disk.get? (pathJoin path (plotName n))) ∧
    ((∀ other, IsPlotFile s.disk path other → strLe other (plotName n) = true) →
      ∃ xs hdr, (plotAllScans env reg cfg fname s).1.disk.get? (pathJoin path (plotName n)) =
        match attempt env reg cfg fname (asked s.sel xs) ⟨x, hdr⟩ with
        | .ok (some pic) => some (.plot (some pic) cfg.now)
        | _ => none) := by
  obtain ⟨h1, h2⟩ := C71_plots hr G s m z hh ⟨hu, by omega⟩ hd n x hx
  constructor
  · rintro ⟨other, ho, hl⟩
    refine h1 ⟨hp, ?_⟩
    rintro ⟨-, h | ⟨-, -, h⟩⟩
    · omega
    · rw [h other ho] at hl; cases hl
  · exact fun h => h2 (fun hc => hc.2 ⟨by omega, .inr ⟨hz.2, hnew, h⟩⟩)

/-- **C72**: when a file counts as updated, its index page is written if some scan was plotted without an error or
there was no page; it shows the plots that exist, in the order of the times of the scans, and the scans that
could not be plotted with the reason.  Otherwise the page stays as it was.  A scan without a time makes the run
fail, and the page stays as it was. -/
theorem C72_page (hr : reg.Perm HKey.all) {fname content path : Str} {sdf : Sdf}
    (G : Galleried env reg cfg fname content sdf path) (s : GS) (m z : Int) (hh : Holds cfg s.disk fname m z)
    (hu : (cfg.files fname).mtime ≠ m ∧ (cfg.files fname).size ≠ z) (hd : s.disk.keys.Nodup) :
    ∃ (out : Str → Out) (after : Str → Obj),
      (∀ n x, (n, x) ∈ sdf.scans →
        Outcome env reg cfg fname path (universalNewlines content) s.disk z s.sel n x (out n) (after n)) ∧
      ((¬ ∃ n ∈ sdf.scans.keys, Out.fine (out n) = true) ∧ s.disk.get? (pathJoin path indexName) ≠ none →
        (plotAllScans env reg cfg fname s).2 = none ∧
        (plotAllScans env reg cfg fname s).1.disk.get? (pathJoin path indexName) = s.disk.get? (pathJoin path indexName)) ∧
      (((∃ n ∈ sdf.scans.keys, Out.fine (out n) = true) ∨ s.disk.get? (pathJoin path indexName) = none) →
        (∀ n ∈ sdf.scans.keys, (after n).epoch ≠ none) →
        (plotAllScans env reg cfg fname s).2 = none ∧
        ∃ page, (plotAllScans env reg cfg fname s).1.disk.get? (pathJoin path indexName) = some (.index (some page)) ∧
          IsPage cfg fname path sdf.scans after out (plotAllScans env reg cfg fname s).1.disk page) ∧
      (((∃ n ∈ sdf.scans.keys, Out.fine (out n) = true) ∨ s.disk.get? (pathJoin path indexName) = none) →
        (∃ n ∈ sdf.scans.keys, (after n).epoch = none) →
        (plotAllScans env reg cfg fname s).2 = some .AttributeError ∧
        (plotAllScans env reg cfg fname s).1.disk.get? (pathJoin path indexName) = s.disk.get? (pathJoin path indexName)) := by
  obtain ⟨out, after, h1, ⟨h2, h3, h4⟩, -⟩ := gallery_updated hr G s m z hh hu hd
  exact ⟨out, after, fun n x hx => (h1 n x hx).1, h2, h3, h4⟩

/-- **C72**: a run for an updated file that ends without an error leaves a copy of the file, of which the text is
the present one unless there was a copy that is not older than the file. -/
theorem C72_copy (hr : reg.Perm HKey.all) {fname content path : Str} {sdf : Sdf}
    (G : Galleried env reg cfg fname content sdf path) (s : GS) (m z : Int) (hh : Holds cfg s.disk fname m z)
    (hu : (cfg.files fname).mtime ≠ m ∧ (cfg.files fname).size ≠ z) (hd : s.disk.keys.Nodup)
    (hok : (plotAllScans env reg cfg fname s).2 = none) :
    (plotAllScans env reg cfg fname s).1.disk.get? (pathJoin path (baseName fname)) =
      match s.disk.get? (pathJoin path (baseName fname)) with
      | none => some (.copy (some (.file (some content))) cfg.now)
      | some old => if old.mtime < (cfg.files fname).mtime then some (.copy (some (.file (some content))) cfg.now)
        else some old := by
  obtain ⟨out, after, -, -, h⟩ := gallery_updated hr G s m z hh hu hd
  exact h hok

/-- **C53**: for a file which does not begin with lines #F, #E and #D (though it is a SPEC data file with a header)
the run stops with a TypeError before anything is made. -/
theorem C53_stops {fname content : Str} {sdf : Sdf} (hf : (cfg.files fname).node = .file (some content))
    (ho : Sdf.openFile env reg fname (cfg.files fname) (cfg.files fname) = .ok sdf) (hh : sdf.headers ≠ [])
    (hb : ¬ Begins content) (others : List Str) (s : GS) :
    Gallery.run env reg cfg (fname :: others) s = (s, some .TypeError) := by
  have hp : plotAllScans env reg cfg fname s = (s, some .TypeError) := by
    have hd : getPlotDir cfg.plotDir fname (cfg.files fname).node = .ok none := by
      rw [hf]
      exact C53_no_directory _ _ _ hb
    unfold plotAllScans
    simp only [open_isSpecFile ho, Bool.true_eq_false, if_false, ho, if_neg hh, hd]
  simp only [Gallery.run, hp]

end
end S2N.Props

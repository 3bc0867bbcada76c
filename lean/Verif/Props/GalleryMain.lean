import Verif.Spec.GalleryPage
import Verif.Props.GalleryCrash
/-
Property C102: the gallery command
-/
namespace S2N.Props
open S2N Py Spec Gallery Plot

theorem not_spec_exists {f : FNode} (h : isSpecFile f = true) : f.exists = true := by
  unfold isSpecFile at h
  by_cases he : f.exists = false
  · simp [he] at h
  · simpa using he

theorem accept_eq (t : Tree) (p : Str) : onlyAcceptSpecFiles t p = if isSpecFile (t.node p) then [p] else [] := by
  unfold onlyAcceptSpecFiles
  by_cases h : isSpecFile (t.node p) = true
  · simp [h, not_spec_exists h]
  · simp [h]

theorem flatMap_accept (t : Tree) (p : Str) : ∀ l : List Str,
    l.flatMap (fun x => onlyAcceptSpecFiles t (pathJoin p x)) = (l.map (pathJoin p)).filter fun q => isSpecFile (t.node q)
  | [] => rfl
  | x :: l => by
    rw [List.flatMap_cons, accept_eq, flatMap_accept t p l, List.map_cons, List.filter_cons]
    split <;> rfl

/-- **C102**: the command works on the SPEC data files among the given paths and directly in the given directories, in
the order of the paths; a path that does not exist, and a file that is no SPEC data file, is passed over. -/
theorem C102_files (t : Tree) (paths fs : List Str) : FilesOfAll t paths fs ↔ fs = fileList t paths := by
  have key : ∀ p fs, FilesOf t p fs ↔ fs = (if (t.node p).exists then
      if (t.node p).isFile then onlyAcceptSpecFiles t p
      else (t.names p).flatMap fun subitem => onlyAcceptSpecFiles t (pathJoin p subitem)
    else []) := by
    intro p fs
    constructor
    · rintro (h | ⟨h, hs⟩ | ⟨h, hs⟩ | h)
      · simp [h, FNode.exists]
      · rw [accept_eq]
        rw [hs]
        simp [h, FNode.exists, FNode.isFile]
      · rw [accept_eq]
        rw [hs]
        simp [h, FNode.exists, FNode.isFile]
      · rw [flatMap_accept]
        simp [h, FNode.exists, FNode.isFile]
    · rintro rfl
      cases h : t.node p with
      | missing => exact .missing h
      | dir => 
        simp only [FNode.exists, FNode.isFile, if_true, Bool.false_eq_true, if_false, flatMap_accept]
        exact .dir h
      | file c =>
        simp only [FNode.exists, FNode.isFile, if_true, accept_eq]
        by_cases hs : isSpecFile (t.node p) = true
        · rw [if_pos hs]; exact .file h hs
        · rw [if_neg hs]; exact .other h (by simpa using hs)
  constructor
  · intro h
    induction h with
    | nil => rfl
    | cons h1 h2 ih => rw [(key _ _).1 h1, ih]; rfl
  · rintro rfl
    induction paths with
    | nil => exact .nil
    | cons p ps ih => exact .cons ((key _ _).2 rfl) ih

/-- **C102**: every file the command works on is a SPEC data file. -/
theorem C102_spec_files (t : Tree) (paths : List Str) (f : Str) : f ∈ fileList t paths ↔
    isSpecFile (t.node f) = true ∧ (f ∈ paths ∨ ∃ dir ∈ paths, t.node dir = .dir ∧ ∃ name ∈ t.names dir, f = pathJoin dir name) := by
  have hn : ∀ g, isSpecFile (t.node g) = true → (t.node g).exists = true ∧ (t.node g).isFile = true := by
    intro g hg
    unfold isSpecFile at hg
    by_cases h : (t.node g).exists = false ∨ (t.node g).isFile = false
    · rw [if_pos h] at hg; cases hg
    · simpa [not_or] using h
  unfold fileList
  simp only [List.mem_flatMap]
  constructor
  · rintro ⟨p, hp, hf⟩
    cases h : t.node p with
    | missing => simp [h, FNode.exists] at hf
    | dir =>
      simp only [h, FNode.exists, FNode.isFile, if_true, Bool.false_eq_true, if_false, flatMap_accept, List.mem_filter, List.mem_map] at hf
      obtain ⟨⟨x, hx, rfl⟩, hs⟩ := hf
      exact ⟨hs, .inr ⟨p, hp, h, x, hx, rfl⟩⟩
    | file c =>
      simp only [h, FNode.exists, FNode.isFile, if_true, accept_eq] at hf
      by_cases hs : isSpecFile (t.node p) = true
      · rw [← h, if_pos hs] at hf
        simp only [List.mem_singleton] at hf
        subst hf
        exact ⟨hs, .inl hp⟩
      · rw [← h, if_neg hs] at hf
        cases hf
  · rintro ⟨hs, hp | ⟨dir, hd, h, x, hx, rfl⟩⟩
    · refine ⟨f, hp, ?_⟩
      rw [if_pos (hn f hs).1, if_pos (hn f hs).2, accept_eq, if_pos hs]
      exact List.mem_singleton.2 rfl
    · refine ⟨dir, hd, ?_⟩
      rw [h]
      simp only [FNode.exists, FNode.isFile, if_true, Bool.false_eq_true, if_false, flatMap_accept, List.mem_filter, List.mem_map]
      exact ⟨⟨x, hx, rfl⟩, hs⟩

section
variable [UniDB] {env : Env} {reg : List HKey} {cfg : Cfg}

/-- **C102**: if the base directory (given with -d, else the working directory) does not exist or is no directory, the
command fails and nothing is changed. -/
theorem C102_refuses (a : Args) (files : Str → FileSt) (names : Str → List Str) (now : Int)
    (draw : Picture → Except PyErr Unit) (s : GS) (base : Str)
    (hb : (a.dir = some base ∧ base ≠ []) ∨ ((a.dir = none ∨ a.dir = some []) ∧ base = a.pwd)) :
    ((files base).node = .missing → Gallery.main env reg a files names now draw s = (s, .noDirectory)) ∧
    (∀ c, (files base).node = .file c → Gallery.main env reg a files names now draw s = (s, .notDirectory)) ∧
    ((files base).node = .dir → ∀ fs, FilesOfAll ⟨fun p => (files p).node, names⟩ a.paths fs →
      Gallery.main env reg a files names now draw s =
        ((Gallery.run env reg ⟨base, a.reversed, files, now, draw⟩ fs s).1,
          .ran (Gallery.run env reg ⟨base, a.reversed, files, now, draw⟩ fs s).2)) := by
  have e : a.base = base := by
    unfold Args.base
    rcases hb with ⟨h, hn⟩ | ⟨h | h, rfl⟩
    · rw [h]; cases base with
      | nil => exact absurd rfl hn
      | cons => rfl
    · rw [h]
    · rw [h]
  refine ⟨fun h => ?_, fun c h => ?_, fun h fs hf => ?_⟩
  · unfold Gallery.main
    rw [e, h]
    rfl
  · unfold Gallery.main
    rw [e, h]
    rfl
  · rw [(C102_files _ _ _).1 hf]
    unfold Gallery.main
    rw [e, h]
    simp only [FNode.exists, Bool.true_eq_false, if_false, ne_eq, not_true, Args.cfg, e]

theorem run_append (fs gs : List Str) (s : GS) : Gallery.run env reg cfg (fs ++ gs) s =
    match Gallery.run env reg cfg fs s with
    | (s, none) => Gallery.run env reg cfg gs s
    | (s, some e) => (s, some e) := by
  induction fs generalizing s with
  | nil => rfl
  | cons f fs ih =>
    simp only [List.cons_append, Gallery.run]
    rcases plotAllScans env reg cfg f s with ⟨s', _ | e⟩
    · exact ih s'
    · rfl

/-- **C102**: the files are worked on one after the other; the first that fails ends the run with its error, and the
files after it are not worked on. -/
theorem C102_stops (before after : List Str) (f : Str) (s s1 s2 : GS) (e : PyErr)
    (h1 : Gallery.run env reg cfg before s = (s1, none)) (h2 : plotAllScans env reg cfg f s1 = (s2, some e)) :
    Gallery.run env reg cfg (before ++ f :: after) s = (s2, some e) := by
  rw [run_append, h1]
  simp only [Gallery.run, h2]

/-! #### A run for all files -/

omit [UniDB] in
theorem makeDir_steps {P : Str → Prop} (path : Str) (s : GS) (h : P path) : Steps P s (makeDir path s) := by
  unfold makeDir
  split
  · exact .rfl'
  · refine .step _ fun p hp => Dict.get?_set_ne _ _ ?_
    rintro rfl
    exact hp h

theorem plotAllScans_steps (hr : reg.Perm HKey.all) {fname content path : Str} {sdf : Sdf}
    (G : Galleried env reg cfg fname content sdf path) (s : GS) :
    Steps (fun p => p = cachePath cfg ∨ p = path ∨ ∃ name, '/' ∉ name ∧ p = pathJoin path name) s
      (plotAllScans env reg cfg fname s).1 := by
  have hm : Steps (fun p => p = cachePath cfg ∨ p = path ∨ ∃ name, '/' ∉ name ∧ p = pathJoin path name) s (makeDir path s) :=
    makeDir_steps path s (.inr (.inl rfl))
  cases hc : readCache cfg s.disk with
  | error e => rw [plotAllScans_unreadable hr G s e hc]; exact hm
  | ok c =>
    have hh := holds_of_read fname hc
    by_cases hu : (cfg.files fname).mtime ≠ (cacheGet c fname).1 ∧ (cfg.files fname).size ≠ (cacheGet c fname).2
    · obtain ⟨l, hl, -, hrun⟩ := plotAllScans_updated hr G s _ _ hh hu
      rw [hrun]
      have hw : Steps (fun p => p = cachePath cfg ∨ p = path ∨ ∃ name, '/' ∉ name ∧ p = pathJoin path name) (makeDir path s)
          (wasFileUpdated cfg fname (makeDir path s)).1 := by
        unfold wasFileUpdated
        split
        · exact .rfl'
        · simp only
          split
          · exact .write _ _ _ (.inl rfl)
          · exact .rfl'
      exact (hm.trans hw).trans ((replot_steps (wants_inside G hl)).mono fun p hp => .inr (.inr hp))
    · rw [plotAllScans_same hr G s _ _ hh hu]; exact hm

theorem run_steps (hr : reg.Perm HKey.all) (fs all : List Str) (hsub : ∀ f ∈ fs, f ∈ all) (hg : AllGalleried env reg cfg fs) (s : GS) :
    Steps (Reserved env reg cfg all) s (Gallery.run env reg cfg fs s).1 := by
  induction fs generalizing s with
  | nil => exact .rfl'
  | cons f fs ih =>
    obtain ⟨content, sdf, path, G⟩ := hg f List.mem_cons_self
    have h1 := (plotAllScans_steps hr G s).mono (Q := Reserved env reg cfg all) (by
      rintro p (h | h)
      · exact .inl h
      · exact .inr ⟨f, hsub f List.mem_cons_self, content, sdf, path, G, h⟩)
    have h2 := ih (fun g h => hsub g (List.mem_cons_of_mem _ h)) (fun g h => hg g (List.mem_cons_of_mem _ h))
    unfold Gallery.run
    rcases hp : plotAllScans env reg cfg f s with ⟨s', _ | e⟩
    · rw [hp] at h1; exact h1.trans (h2 s')
    · rw [hp] at h1; exact h1

/-- **C102**: at any time of a run the only things that were changed are the cache of file times, the gallery directories
of the files, and what is in these directories. -/
theorem C102_only_own (hr : reg.Perm HKey.all) (fs : List Str) (hg : AllGalleried env reg cfg fs) (s : GS) :
    ∃ changes, (Gallery.run env reg cfg fs s).1.past = s.past ++ changes ∧
      (Gallery.run env reg cfg fs s).1.disk = changes.getLast?.getD s.disk ∧
      ∀ d ∈ changes, ∀ p, ¬ Reserved env reg cfg fs p → d.get? p = s.disk.get? p :=
  run_steps hr fs fs (fun _ h => h) hg s

/-! #### The same run again -/

omit [UniDB] in
theorem digit_slash (n : Nat) : (Char.ofNat (48 + n % 10)) ≠ '/' := by
  have : n % 10 < 10 := Nat.mod_lt _ (by omega)
  generalize n % 10 = k at this
  revert k
  decide

omit [UniDB] in
theorem two_slash (n : Nat) : '/' ∉ two n := by
  intro h
  simp only [two, List.mem_cons, List.not_mem_nil, or_false] at h
  rcases h with h | h
  · exact digit_slash _ h.symm
  · exact digit_slash _ h.symm

omit [UniDB] in
theorem four_slash (n : Nat) : '/' ∉ four n := by
  intro h
  rcases List.mem_append.1 h with h | h
  · exact two_slash _ h
  · exact two_slash _ h

omit [UniDB] in
theorem sepd_plain {a : Str} (h1 : a ≠ []) (h2 : a.getLast? ≠ some '/') : sepd a = a ++ ['/'] := by
  unfold sepd
  rw [if_neg]
  rintro (h | h)
  · exact h1 h
  · unfold endsWith at h
    obtain ⟨t, rfl⟩ := List.isSuffixOf_iff_suffix.1 h
    simp at h2

omit [UniDB] in
theorem root_ne {p : Str} (h : p ≠ []) : (splitext p).1 ≠ [] := by
  unfold splitext
  split
  · exact h
  · next d _ =>
    split
    · next hc =>
      intro e
      rw [show p.take d = [] from e] at hc
      simp at hc
    · exact h

omit [UniDB] in
/-- a gallery directory is two directories below the base directory -/
theorem getPlotDir_depth {base fname path : Str} {f : FNode} (h : getPlotDir base fname f = .ok (some path))
    (hn : baseName fname ≠ []) : path.count '/' = (sepd base).count '/' + 2 ∧ path ≠ [] ∧ path.getLast? ≠ some '/' := by
  unfold getPlotDir at h
  split at h
  · simp at h
  · simp at h
  · next date _ =>
    split at h
    · simp at h
    · next d hd =>
      unfold datePath at hd
      cases ht : Sdf.strptime date with
      | error e => rw [ht] at hd; simp [Except.map] at hd
      | ok tm =>
        rw [ht] at hd
        simp only [Except.map, Except.ok.injEq] at hd
        have hy : four tm.year ≠ [] := by simp [four, two]
        have hyl : (four tm.year).getLast? ≠ some '/' := fun e => four_slash _ (List.mem_of_getLast? e)
        have hml : two tm.mon ≠ [] := by simp [two]
        rw [pathJoin_sepd _ _ (head_of_not_mem (two_slash _)), sepd_plain hy hyl] at hd
        have hdh : d.head? ≠ some '/' := by
          rw [← hd]
          intro e
          simp only [four, two, List.cons_append, List.head?_cons, Option.some.injEq] at e
          exact (digit_ne (tm.year / 100)).1 e
        have hdl : d.getLast? ≠ some '/' := by
          rw [← hd, List.getLast?_append]
          intro e
          cases hm : (two tm.mon).getLast? with
          | none => rw [List.getLast?_eq_none_iff] at hm; exact hml hm
          | some c =>
            rw [hm] at e
            simp only [Option.some_or, Option.some.injEq] at e
            subst e
            exact two_slash _ (List.mem_of_getLast? hm)
        have hdn : d ≠ [] := by rw [← hd]; simp
        rw [pathJoin_sepd base d hdh] at h
        have hr := root_slash fname
        have hrn := root_ne hn
        rw [pathJoin_sepd _ _ (head_of_not_mem hr), sepd_plain (by simp [hdn]) (by
          rw [List.getLast?_append]
          cases hm : d.getLast? with
          | none => rw [List.getLast?_eq_none_iff] at hm; exact absurd hm hdn
          | some c =>
            intro e
            simp only [Option.some_or, Option.some.injEq] at e
            subst e
            exact hdl hm)] at h
        simp only [Except.ok.injEq, Option.some.injEq] at h
        subst h
        refine ⟨?_, by simp, ?_⟩
        · rw [← hd]
          simp only [List.count_append, List.count_eq_zero.2 hr, List.count_eq_zero.2 (two_slash _), List.count_eq_zero.2 (four_slash _)]
          rfl
        · rw [List.getLast?_append]
          intro e
          cases hm : (splitext (baseName fname)).1.getLast? with
          | none => rw [List.getLast?_eq_none_iff] at hm; exact hrn hm
          | some c =>
            rw [hm] at e
            simp only [Option.some_or, Option.some.injEq] at e
            subst e
            exact hr (List.mem_of_getLast? hm)

/-- a gallery directory is not in a gallery directory -/
theorem path_not_inside {f g c1 c2 p1 p2 : Str} {s1 s2 : Sdf} (G1 : Galleried env reg cfg f c1 s1 p1)
    (G2 : Galleried env reg cfg g c2 s2 p2) : ¬ ∃ name, '/' ∉ name ∧ p1 = pathJoin p2 name := by
  rintro ⟨name, hn, e⟩
  obtain ⟨a1, -, -⟩ := getPlotDir_depth G1.dir G1.notPlot.2.2
  obtain ⟨a2, b2, c2⟩ := getPlotDir_depth G2.dir G2.notPlot.2.2
  rw [pathJoin_sepd _ _ (head_of_not_mem hn), sepd_plain b2 c2] at e
  have := congrArg (List.count '/') e
  simp only [List.count_append, List.count_eq_zero.2 hn] at this
  have h1 : List.count '/' ['/'] = 1 := rfl
  omega

/-- the gallery holds everything about this file -/
def Settled (env : Env) (reg : List HKey) (cfg : Cfg) (d : Disk) (f : Str) : Prop :=
  (∃ content sdf path, Galleried env reg cfg f content sdf path ∧ d.has path = true) ∧
  ∃ m z, Holds cfg d f m z ∧ ¬ ((cfg.files f).mtime ≠ m ∧ (cfg.files f).size ≠ z)

theorem settled_run (hr : reg.Perm HKey.all) (s : GS) (f : Str) (h : Settled env reg cfg s.disk f) :
    plotAllScans env reg cfg f s = (s, none) := by
  obtain ⟨⟨content, sdf, path, G, hp⟩, m, z, hh, hu⟩ := h
  rw [plotAllScans_same hr G s m z hh hu]
  unfold makeDir
  rw [if_pos hp]

omit [UniDB] in
theorem has_of_get {d d' : Disk} {p : Str} (h : d'.get? p = d.get? p) (hd : d.has p = true) : d'.has p = true := by
  cases hh : d'.has p with
  | true => rfl
  | false =>
    have h1 := (Dict.get?_eq_none_iff d' p).2 ((Dict.not_has_iff d' p).1 hh)
    rw [h1] at h
    have h2 := (Dict.get?_eq_none_iff d p).1 h.symm
    exact absurd ((Dict.has_iff_mem d p).1 hd) h2

/-- what a run for a file without an error leaves -/
theorem settles (hr : reg.Perm HKey.all) (s s' : GS) {g content path : Str} {sdf : Sdf}
    (G : Galleried env reg cfg g content sdf path) (h : plotAllScans env reg cfg g s = (s', none)) :
    Settled env reg cfg s'.disk g ∧ ∀ f, Settled env reg cfg s.disk f → Settled env reg cfg s'.disk f := by
  have hne := path_ne_cache G.dir
  have hm := makeDir_has path s
  cases hc : readCache cfg s.disk with
  | error e => rw [plotAllScans_unreadable hr G s e hc] at h; cases h
  | ok c =>
    have hh := holds_of_read g hc
    have hmd : ∀ f m z, Holds cfg s.disk f m z → Holds cfg (makeDir path s).disk f m z := fun f m z hh =>
      holds_congr hh (makeDir_disk path s _ (Ne.symm hne))
    have hkeep : ∀ p, s.disk.has p = true → (makeDir path s).disk.has p = true := by
      intro p hp
      by_cases e : p = path
      · rw [e]; exact hm
      · exact has_of_get (makeDir_disk path s p e) hp
    by_cases hu : (cfg.files g).mtime ≠ (cacheGet c g).1 ∧ (cfg.files g).size ≠ (cacheGet c g).2
    · obtain ⟨l, hl, -, hrun⟩ := plotAllScans_updated hr G s _ _ hh hu
      rw [hrun] at h
      have hst := (replot_steps (env := env) (reg := reg) (cfg := cfg) (fname := g) (sdf := sdf)
        (old := ((cacheGet c g).1, (cacheGet c g).2))
        (new := ((cfg.files g).mtime, (cfg.files g).size))
        (s := (wasFileUpdated cfg g (makeDir path s)).1) (wants_inside G hl)).disk
      rw [h] at hst
      obtain ⟨-, w, -⟩ := C50_updated cfg g (makeDir path s) _ _ (hmd g _ _ hh)
      obtain ⟨w1, w2, w3⟩ := w hu
      have hcache := hst (cachePath cfg) (fun hi => inside_ne_cache G.dir hi rfl)
      have hpath : ∀ {f c2 p2 : Str} {s2 : Sdf}, Galleried env reg cfg f c2 s2 p2 → (makeDir path s).disk.has p2 = true →
          s'.disk.has p2 = true := by
        intro f c2 p2 s2 G2 h2
        refine has_of_get ?_ h2
        rw [hst p2 (path_not_inside G2 G), w3 p2 (path_ne_cache G2.dir)]
      have hg : Settled env reg cfg s'.disk g :=
        ⟨⟨content, sdf, path, G, hpath G hm⟩, _, _, holds_congr w1 hcache, fun hn => hn.1 rfl⟩
      refine ⟨hg, ?_⟩
      rintro f ⟨⟨c2, s2, p2, G2, h2⟩, m, z, hf, hfu⟩
      by_cases e : f = g
      · rw [e]; exact hg
      · exact ⟨⟨c2, s2, p2, G2, hpath G2 (hkeep _ h2)⟩, m, z, holds_congr (w2 f m z e (hmd f m z hf)) hcache, hfu⟩
    · rw [plotAllScans_same hr G s _ _ hh hu] at h
      cases h
      refine ⟨⟨⟨content, sdf, path, G, hm⟩, _, _, hmd g _ _ hh, hu⟩, ?_⟩
      rintro f ⟨⟨c2, s2, p2, G2, h2⟩, m, z, hf, hfu⟩
      exact ⟨⟨c2, s2, p2, G2, hkeep _ h2⟩, m, z, hmd f m z hf, hfu⟩

theorem run_settles (hr : reg.Perm HKey.all) (fs : List Str) (hg : AllGalleried env reg cfg fs) (s s' : GS)
    (h : Gallery.run env reg cfg fs s = (s', none)) :
    (∀ f ∈ fs, Settled env reg cfg s'.disk f) ∧ ∀ f, Settled env reg cfg s.disk f → Settled env reg cfg s'.disk f := by
  induction fs generalizing s with
  | nil => cases h; exact ⟨by simp, fun f hf => hf⟩
  | cons g fs ih =>
    obtain ⟨content, sdf, path, G⟩ := hg g List.mem_cons_self
    unfold Gallery.run at h
    rcases hp : plotAllScans env reg cfg g s with ⟨s1, _ | e⟩
    · rw [hp] at h
      obtain ⟨a, b⟩ := settles hr s s1 G hp
      obtain ⟨c, d⟩ := ih (fun f hf => hg f (List.mem_cons_of_mem _ hf)) s1 h
      refine ⟨?_, fun f hf => d f (b f hf)⟩
      intro f hf
      rcases List.mem_cons.1 hf with rfl | hf
      · exact d f a
      · exact c f hf
    · rw [hp] at h; cases h

theorem run_settled (hr : reg.Perm HKey.all) (fs : List Str) (s : GS) (h : ∀ f ∈ fs, Settled env reg cfg s.disk f) :
    Gallery.run env reg cfg fs s = (s, none) := by
  induction fs with
  | nil => rfl
  | cons f fs ih =>
    unfold Gallery.run
    rw [settled_run hr s f (h f List.mem_cons_self)]
    exact ih fun g hg => h g (List.mem_cons_of_mem _ hg)

/-- **C102**: after a run without an error, another run for the same files (or some of them, in any order), with the files
as they were, does nothing: nothing in the gallery is written again, not even with the same content, and no error is raised.
This is what lets the command be called every few minutes. -/
theorem C102_again (hr : reg.Perm HKey.all) (fs : List Str) (hg : AllGalleried env reg cfg fs) (s s' : GS)
    (h : Gallery.run env reg cfg fs s = (s', none)) (gs : List Str) (hs : ∀ f ∈ gs, f ∈ fs) :
    Gallery.run env reg cfg gs s' = (s', none) :=
  run_settled hr gs s' fun f hf => (run_settles hr fs hg s s' h).1 f (hs f hf)

/-- **C102**: the same for the command, also with a later time. -/
theorem C102_command_again (hr : reg.Perm HKey.all) (a : Args) (files : Str → FileSt) (names : Str → List Str) (now later : Int)
    (draw : Picture → Except PyErr Unit) (s s' : GS)
    (hg : AllGalleried env reg (a.cfg files now draw) (fileList ⟨fun p => (files p).node, names⟩ a.paths))
    (h : Gallery.main env reg a files names now draw s = (s', .ran none)) :
    Gallery.main env reg a files names later draw s' = (s', .ran none) := by
  have hd : (files a.base).node = .dir := by
    by_cases h1 : (files a.base).node.exists = false
    · simp [Gallery.main, h1] at h
    · by_cases h2 : (files a.base).node = .dir
      · exact h2
      · simp [Gallery.main, h1, h2] at h
  have hrun : ∀ t x, Gallery.main env reg a files names t draw x =
      ((Gallery.run env reg (a.cfg files t draw) (fileList ⟨fun p => (files p).node, names⟩ a.paths) x).1,
        .ran (Gallery.run env reg (a.cfg files t draw) (fileList ⟨fun p => (files p).node, names⟩ a.paths) x).2) := by
    intro t x
    unfold Gallery.main
    rw [hd]
    simp only [FNode.exists, Bool.true_eq_false, if_false, ne_eq, not_true]
  rw [hrun] at h
  simp only [Prod.mk.injEq, Ends.ran.injEq] at h
  have h' : Gallery.run env reg (a.cfg files now draw) (fileList ⟨fun p => (files p).node, names⟩ a.paths) s = (s', none) :=
    Prod.ext h.1 h.2
  obtain ⟨hs, -⟩ := run_settles hr _ hg s s' h'
  rw [hrun, run_settled hr]
  intro f hf
  obtain ⟨⟨c, sdf, path, G, hp⟩, m, z, hh, hu⟩ := hs f hf
  exact ⟨⟨c, sdf, path, ⟨G.file, G.opened, G.headers, G.dir, G.notPlot, G.names⟩, hp⟩, m, z, hh, hu⟩

end

end S2N.Props

import Verif.Props.Cli
import Verif.Props.Columns
/-
C62: what extractSpecScan writes.
-/
namespace S2N.Props
open S2N S2N.Py S2N.Spec

theorem mapE_total {α β : Type} (f : α → Except PyErr β) (g : α → β) : ∀ (l : List α),
    (∀ x ∈ l, f x = .ok (g x)) → mapE f l = .ok (l.map g)
  | [], _ => rfl
  | x :: xs, h => by
    simp [mapE, h x List.mem_cons_self, mapE_total f g xs (fun y hy => h y (List.mem_cons_of_mem _ hy))]

theorem zipRows_map {α : Type} (rows : List α) : ∀ (fs : List (α → Str)), fs ≠ [] →
    Extract.zipRows (fs.map (fun f => rows.map f)) = rows.map (fun r => fs.map (fun f => f r))
  | [], h => absurd rfl h
  | [f], _ => by simp [Extract.zipRows]
  | f :: g :: fs, _ => by
    have ih := zipRows_map rows (g :: fs) (by simp)
    simp only [List.map_cons] at ih ⊢
    rw [Extract.zipRows]
    · rw [ih, List.zip_map', List.map_map]; rfl
    · simp

theorem foldl_fs {α : Type} (f : Con → α → Con) (h : ∀ c a, (f c a).fs = c.fs) : ∀ (l : List α) (c : Con),
    (l.foldl f c).fs = c.fs
  | [], _ => rfl
  | a :: l, c => by rw [List.foldl_cons, foldl_fs f h l, h]

theorem heading_comment (show_ : PyFloat → Str) (a : Extract.Args) (x : Obj) :
    ∀ l ∈ Extract.headingText show_ a x, startsWith l p!"#" = true := by
  intro l hl
  unfold Extract.headingText at hl
  simp only [List.mem_append] at hl
  rcases hl with ((h | h) | h) | h
  · split at h
    · obtain ⟨kv, _, rfl⟩ := List.mem_map.1 h; rfl
    · cases h
  · split at h
    · obtain ⟨kv, _, rfl⟩ := List.mem_map.1 h; rfl
    · cases h
  · split at h
    · split at h
      · cases h
      · cases h
      · simp only [List.mem_singleton] at h; subst h; rfl
    · cases h
  · split at h
    · obtain ⟨kv, _, rfl⟩ := List.mem_map.1 h; rfl
    · cases h

theorem top_comment (show_ : PyFloat → Str) (a : Extract.Args) (n : Str) (x : Obj) :
    ∃ more : List Str, (∀ l ∈ more, startsWith l p!"#" = true) ∧
      Extract.topText show_ a n x = [p!"# file: " ++ a.specFile, p!"# scan: " ++ n] ++ more := by
  refine ⟨_, ?_, rfl⟩
  intro l hl
  split at hl
  · cases hl
  · simp only [List.mem_append, List.mem_cons, List.not_mem_nil, or_false] at hl
    rcases hl with ((rfl | rfl) | h) | rfl | rfl | rfl
    · rfl
    · rfl
    · exact heading_comment show_ a x l h
    all_goals rfl

theorem join_append2 (sep : Str) (b : List Str) (hb : b ≠ []) : ∀ (a : List Str), a ≠ [] →
    join sep (a ++ b) = join sep a ++ sep ++ join sep b
  | [], h => absurd rfl h
  | [x], _ => by rw [List.singleton_append, join_cons _ _ _ hb, join_singleton]
  | x :: y :: a, _ => by
    rw [List.cons_append, join_cons sep x (y :: a ++ b) (by simp), join_append2 sep b hb (y :: a) (by simp),
      join_cons sep x (y :: a) (by simp)]
    simp only [List.append_assoc]

/-- the scan has all the columns asked for, and the file is written -/
theorem report_rows (show_ : PyFloat → Str) (a : Extract.Args) (n : Str) (x : Obj) (c : Con)
    (names : List Str) (rows : List (List PyFloat)) (sp : Option (Dict (List (List Num))))
    (hL : x.L = some names) (ht : TableOf names rows sp x.data) (hne : a.column ≠ [])
    (hc : ∀ l ∈ a.column, l ∈ names) (hok : (Extract.report show_ a n x c).2 = none) :
    ∃ text, RowsText show_ a n names rows text ∧
      (Extract.report show_ a n x c).1.fs = c.fs.put (Extract.outputName a.specFile n) (.text (some text) 0 0) := by
  have hd : x.data ≠ [] := by
    intro e
    have := ht.keys
    rw [e] at this
    cases hcol : a.column with
    | nil => exact hne hcol
    | cons l ls =>
      have hl : l ∈ names := hc l (by rw [hcol]; simp)
      have h2 : l ∈ Dict.keys ([] : Dict DCol) := by rw [this]; exact List.mem_append_left _ hl
      cases h2
  have hcols : Extract.columns show_ x.data a.column =
      .ok (a.column.map (fun l => rows.map (fun r => show_ (r.getD (names.idxOf l) .nan)))) := by
    unfold Extract.columns
    apply mapE_total
    intro l hl
    have hi := List.idxOf_lt_length_of_mem (hc l hl)
    have := ht.column (names.idxOf l) l (by rw [List.getElem?_eq_getElem hi, List.getElem_idxOf])
    rw [this]
    simp [Extract.cells]
  have htxt : Extract.dataText show_ a x = .ok ((if a.labels then [p!"# " ++ join p!"\t" a.column] else []) ++
        rows.map (fun r => join p!"\t" (a.column.map (fun l => show_ (r.getD (names.idxOf l) .nan))))) := by
    unfold Extract.dataText
    simp only [if_neg hd, hcols]
    congr 2
    have := zipRows_map rows (a.column.map (fun l => fun (r : List PyFloat) => show_ (r.getD (names.idxOf l) .nan)))
      (by simpa using hne)
    rw [List.map_map] at this
    rw [show (a.column.map (fun l => rows.map (fun r => show_ (r.getD (names.idxOf l) .nan)))) =
      a.column.map ((fun f => rows.map f) ∘ fun l => fun (r : List PyFloat) => show_ (r.getD (names.idxOf l) .nan)) from rfl,
      this, List.map_map]
    simp [Function.comp_def]
  obtain ⟨more, hm, htop⟩ := top_comment show_ a n x
  unfold Extract.report at hok ⊢
  simp only [hL, Option.getD_some] at hok ⊢
  have hfs := foldl_fs (fun c l => if l ∈ names then c else c.say a.level.verb (Extract.notFound l n))
    (by intro c l; split; rfl; exact say_fs _ _ _) a.column c
  generalize hgc : (List.foldl (fun c l => if l ∈ names then c else c.say a.level.verb (Extract.notFound l n)) c a.column) = c1 at *
  have hfil : (a.column.filter (fun l => decide (l ∈ names))) = a.column :=
    List.filter_eq_self.2 (fun l hl => decide_eq_true (hc l hl))
  rw [hfil, if_pos rfl, htxt] at hok ⊢
  simp only [Res.eval_ok] at hok ⊢
  split at hok
  · cases hok
  · rename_i hr
    rw [if_neg hr]
    refine ⟨_, ⟨more, hm, rfl⟩, ?_⟩
    simp only [Res.ok_fst]
    rw [foldl_fs _ (fun c l => say_fs _ _ _)]
    simp only [say_fs, hfs, htop]

/-- no data points: the file holds comments only -/
theorem report_empty (show_ : PyFloat → Str) (a : Extract.Args) (n : Str) (x : Obj) (c : Con)
    (names : List Str) (hL : x.L = some names) (hd : x.data = [])
    (hc : ∀ l ∈ a.column, l ∈ names) (hok : (Extract.report show_ a n x c).2 = none) :
    ∃ text, EmptyText a n text ∧
      (Extract.report show_ a n x c).1.fs = c.fs.put (Extract.outputName a.specFile n) (.text (some text) 0 0) := by
  obtain ⟨more, hm, htop⟩ := top_comment show_ a n x
  unfold Extract.report at hok ⊢
  simp only [hL, Option.getD_some] at hok ⊢
  have hfs := foldl_fs (fun c l => if l ∈ names then c else c.say a.level.verb (Extract.notFound l n))
    (by intro c l; split; rfl; exact say_fs _ _ _) a.column c
  generalize hgc : (List.foldl (fun c l => if l ∈ names then c else c.say a.level.verb (Extract.notFound l n)) c a.column) = c1 at *
  have hfil : (a.column.filter (fun l => decide (l ∈ names))) = a.column :=
    List.filter_eq_self.2 (fun l hl => decide_eq_true (hc l hl))
  have htxt : Extract.dataText show_ a x = .ok ((if a.labels then [p!"# " ++ join p!"\t" a.column] else []) ++
        [p!"# <no SPEC data points in this scan>"]) := by
    unfold Extract.dataText; simp only [hd, if_true]
  rw [hfil, if_pos rfl, htxt] at hok ⊢
  simp only [Res.eval_ok] at hok ⊢
  split at hok
  · cases hok
  · rename_i hr
    rw [if_neg hr]
    refine ⟨join p!"\n" ([p!"# file: " ++ a.specFile, p!"# scan: " ++ n] ++
      (more ++ ((if a.labels then [p!"# " ++ join p!"\t" a.column] else []) ++
        [p!"# <no SPEC data points in this scan>"]))), ⟨_, ?_, rfl⟩, ?_⟩
    · intro l hl
      simp only [List.mem_append, List.mem_singleton] at hl
      rcases hl with h | h | rfl
      · exact hm l h
      · split at h
        · simp only [List.mem_singleton] at h; subst h; rfl
        · cases h
      · rfl
    · simp only [Res.ok_fst]
      rw [foldl_fs _ (fun c l => say_fs _ _ _)]
      simp only [say_fs, hfs, htop]
      rw [← List.append_assoc [_, _] more, join_append2 p!"\n" _ (by simp) ([_, _] ++ more) (by simp)]

/-- a column is missing: the scan is skipped, and each missing label is reported in verbose mode -/
theorem report_missing (show_ : PyFloat → Str) (a : Extract.Args) (n : Str) (x : Obj) (c : Con)
    (names : List Str) (hL : x.L = some names) (hc : ∃ l ∈ a.column, l ∉ names) :
    (Extract.report show_ a n x c).2 = none ∧ (Extract.report show_ a n x c).1.fs = c.fs ∧
    (Extract.report show_ a n x c).1.printed = c.printed ++
      (if a.level = .verbose then (a.column.filter (fun l => decide (l ∉ names))).map (fun l => Extract.notFound l n) else []) := by
  unfold Extract.report
  simp only [hL, Option.getD_some]
  have hfs := foldl_fs (fun c l => if l ∈ names then c else c.say a.level.verb (Extract.notFound l n))
    (by intro c l; split; rfl; exact say_fs _ _ _) a.column c
  have hlen : (a.column.filter (fun l => decide (l ∈ names))).length ≠ a.column.length := by
    obtain ⟨l, hl, hn⟩ := hc
    intro e
    have := List.filter_eq_self.1 (List.filter_sublist.eq_of_length e) l hl
    exact hn (of_decide_eq_true this)
  rw [if_neg hlen]
  refine ⟨rfl, hfs, ?_⟩
  simp only [Res.ok_fst]
  have : ∀ (ls : List Str) (c : Con),
      (ls.foldl (fun c l => if l ∈ names then c else c.say a.level.verb (Extract.notFound l n)) c).printed =
      c.printed ++ (if a.level = .verbose then (ls.filter (fun l => decide (l ∉ names))).map (fun l => Extract.notFound l n) else []) := by
    intro ls
    induction ls with
    | nil => intro c; split <;> simp
    | cons l ls ih =>
      intro c
      rw [List.foldl_cons, ih]
      by_cases h : l ∈ names
      · simp [h]
      · simp only [h, if_false, List.filter_cons, not_false_eq_true, decide_true, if_true]
        cases hv : a.level <;> simp [Con.say, Level.verb, hv]
  exact this _ _

theorem report_frame (show_ : PyFloat → Str) (a : Extract.Args) (n : Str) (x : Obj) (c : Con) :
    (Extract.report show_ a n x c).1.fs.real = c.fs.real ∧
    ∀ p, c.fs.real (Extract.outputName a.specFile n) ≠ p →
      (Extract.report show_ a n x c).1.fs.files.get? p = c.fs.files.get? p := by
  unfold Extract.report
  simp only
  have hfs := foldl_fs (fun c l => if l ∈ x.L.getD [] then c else c.say a.level.verb (Extract.notFound l n))
    (by intro c l; split; rfl; exact say_fs _ _ _) a.column c
  generalize hgc : (List.foldl (fun c l => if l ∈ x.L.getD [] then c else c.say a.level.verb (Extract.notFound l n)) c a.column) = c1 at *
  split
  · cases Extract.dataText show_ a x with
    | error e => simp [hfs]
    | ok txt =>
      simp only [Res.eval_ok]
      split
      · simp [hfs]
      · simp only [Res.ok_fst]
        rw [foldl_fs _ (fun c l => say_fs _ _ _)]
        simp only [say_fs, hfs]
        exact ⟨rfl, fun p hp => Dict.get?_set_ne _ _ hp⟩
  · simp [hfs]

section
variable [UniDB] (env : Env) (reg : List HKey)

/-- the file object while its scans are being interpreted -/
structure Seen (s0 s : Sdf) : Prop where
  keys : s.scans.keys = s0.scans.keys
  named : WellNamed s
  obj : ∀ n x, s.scans.get? n = some x → ∃ x0, s0.scans.get? n = some x0 ∧
    (x = x0 ∨ ∃ h, (interpretScan env reg ⟨x0, h⟩).2 = none ∧ x = (interpretScan env reg ⟨x0, h⟩).1.scan)

theorem one_ok (show_ : PyFloat → Str) (a : Extract.Args) (t : Str) (s0 : Sdf) (s : Extract.St)
    (hs : Seen env reg s0 s.sdf) (hok : (Extract.one env reg show_ a t s).2 = none) :
    ∃ x0 h, s0.getScan (.str t) = .ok (some x0) ∧ (interpretScan env reg ⟨x0, h⟩).2 = none ∧
      (Extract.report show_ a t (interpretScan env reg ⟨x0, h⟩).1.scan s.con).2 = none ∧
      (Extract.one env reg show_ a t s).1.con = (Extract.report show_ a t (interpretScan env reg ⟨x0, h⟩).1.scan s.con).1 ∧
      Seen env reg s0 (Extract.one env reg show_ a t s).1.sdf ∧ (s.sdf = s0 → h = s0.headerOf x0) := by
  unfold Extract.one at hok ⊢
  cases hg : s.sdf.getScan (.str t) with
  | error e => rw [hg] at hok; cases hok
  | ok o =>
    rw [hg] at hok
    simp only [Res.eval_ok] at hok ⊢
    cases o with
    | none => cases hok
    | some x =>
      simp only at hok ⊢
      obtain ⟨n, hn, hkey⟩ := S2N.getScan_name hg
      obtain ⟨x0, h0, hx⟩ := hs.obj n x hn
      have hget : s0.getScan (.str t) = .ok (some x0) := by rw [hkey s0 hs.keys.symm, h0]
      generalize hh : s.sdf.headerOf x = h at *
      -- the interpretation of the scan as it was at first
      have hkey2 : ∃ h1, ((interpretScan env reg ⟨x, h⟩).2 = none →
          (interpretScan env reg ⟨x0, h1⟩).2 = none ∧
          (interpretScan env reg ⟨x, h⟩).1.scan = (interpretScan env reg ⟨x0, h1⟩).1.scan) ∧ (x = x0 → h1 = h) := by
        by_cases hxx : x = x0
        · subst hxx; exact ⟨h, fun e => ⟨e, rfl⟩, fun _ => rfl⟩
        rcases hx with rfl | ⟨h1, e1, e2⟩
        · exact absurd rfl hxx
        · refine ⟨h1, fun _ => ⟨e1, ?_⟩, fun e => absurd e hxx⟩
          have : x.interpreted = true := by rw [e2]; exact interp_interpreted e1
          rw [interp_done this]
          exact e2
      obtain ⟨h1, hk, hsame⟩ := hkey2
      cases e : (interpretScan env reg ⟨x, h⟩).2 with
      | some err => rw [e] at hok; cases hok
      | none =>
        rw [e] at hok
        simp only at hok ⊢
        obtain ⟨k1, k2⟩ := hk e
        rw [k2] at hok
        refine ⟨x0, h1, hget, k1, hok, by rw [k2], ?_, ?_⟩
        rotate_left
        · intro es
          have : x = x0 := by
            rw [es, h0] at hn; exact (Option.some.inj hn).symm
          rw [hsame this, ← hh, es, this]
        have hid := interp_ident env reg ⟨x, h⟩
        have hxn : x.scanNum = n := hs.named.named _ (Dict.mem_of_get? hn)
        have hmem : n ∈ s.sdf.scans.keys := List.mem_map.2 ⟨_, Dict.mem_of_get? hn, rfl⟩
        refine ⟨?_, ⟨?_, ?_⟩, ?_⟩
        · show (s.sdf.scans.set x.scanNum _).keys = _
          rw [hxn, Dict.keys_set, if_pos hmem]; exact hs.keys
        · show (s.sdf.scans.set x.scanNum _).keys.Nodup
          rw [hxn, Dict.keys_set, if_pos hmem]; exact hs.named.nodup
        · intro p hp
          rcases Dict.mem_set (show p ∈ s.sdf.scans.set x.scanNum _ from hp) with rfl | h
          · exact congrArg Ident.scanNum hid
          · exact hs.named.named p h
        · intro m y hy
          replace hy : (s.sdf.scans.set x.scanNum (interpretScan env reg ⟨x, h⟩).1.scan).get? m = some y := hy
          rw [hxn, Dict.get?_set] at hy
          by_cases hm : n = m
          · rw [if_pos hm] at hy; subst hm
            exact ⟨x0, h0, .inr ⟨h1, k1, by rw [← k2]; exact (Option.some.inj hy).symm⟩⟩
          · rw [if_neg hm] at hy
            exact hs.obj m y hy

theorem loop_frame (show_ : PyFloat → Str) (a : Extract.Args) : ∀ (ts : List Str) (s : Extract.St),
    (forEach (Extract.one env reg show_ a) ts s).1.con.fs.real = s.con.fs.real ∧
    ∀ p, (∀ t ∈ ts, s.con.fs.real (Extract.outputName a.specFile t) ≠ p) →
      (forEach (Extract.one env reg show_ a) ts s).1.con.fs.files.get? p = s.con.fs.files.get? p
  | [], s => ⟨rfl, fun _ _ => rfl⟩
  | t :: ts, s => by
    have h1 : (Extract.one env reg show_ a t s).1.con.fs.real = s.con.fs.real ∧
        ∀ p, s.con.fs.real (Extract.outputName a.specFile t) ≠ p →
          (Extract.one env reg show_ a t s).1.con.fs.files.get? p = s.con.fs.files.get? p := by
      unfold Extract.one
      cases hg : s.sdf.getScan (.str t) with
      | error e => exact ⟨rfl, fun _ _ => rfl⟩
      | ok o =>
        cases o with
        | none => exact ⟨rfl, fun _ _ => rfl⟩
        | some x =>
          simp only [Res.eval_ok]
          split
          · exact ⟨rfl, fun _ _ => rfl⟩
          · exact report_frame show_ a t _ s.con
    simp only [forEach, Res.andThen]
    split
    · obtain ⟨h2, h3⟩ := loop_frame show_ a ts (Extract.one env reg show_ a t s).1
      refine ⟨h2.trans h1.1, fun p hp => ?_⟩
      rw [h3 p (fun u hu => by rw [h1.1]; exact hp u (List.mem_cons_of_mem _ hu)),
        h1.2 p (hp t List.mem_cons_self)]
    · exact ⟨h1.1, fun p hp => h1.2 p (hp t List.mem_cons_self)⟩

theorem loop_ok (show_ : PyFloat → Str) (a : Extract.Args) (s0 : Sdf) : ∀ (ts : List Str) (s : Extract.St),
    Seen env reg s0 s.sdf → (forEach (Extract.one env reg show_ a) ts s).2 = none →
    Seen env reg s0 (forEach (Extract.one env reg show_ a) ts s).1.sdf
  | [], _, h, _ => h
  | t :: ts, s, h, hok => by
    obtain ⟨h1, h2, h3⟩ := forEach_cons_ok hok
    rw [h2]
    obtain ⟨_, _, _, _, _, _, h4, _⟩ := one_ok env reg show_ a t s0 s h h1
    exact loop_ok show_ a s0 ts _ h4 h3

/-- what is reported of one scan of a run, and that it stays -/
theorem run_scan (hr : reg.Perm HKey.all) (show_ : PyFloat → Str) (a : Extract.Args) (c : Con)
    (hok : (Extract.main env reg show_ a c).2 = none) :
    ∃ scans sdf, Extract.expandTerms a.scan = .ok scans ∧
      Sdf.openFile env reg a.specFile (Stored.file (c.fs.at? a.specFile)) (Stored.file (c.fs.at? a.specFile)) = .ok sdf ∧
      (Extract.main env reg show_ a c).1.fs.real = c.fs.real ∧
      (∀ p, (∀ t ∈ scans, c.fs.real (Extract.outputName a.specFile t) ≠ p) →
        (Extract.main env reg show_ a c).1.fs.files.get? p = c.fs.files.get? p) ∧
      ∀ pre t post, scans = pre ++ t :: post → ∃ c1 : Con, ∃ x0 h, sdf.getScan (.str t) = .ok (some x0) ∧
        (interpretScan env reg ⟨x0, h⟩).2 = none ∧ (pre = [] → h = sdf.headerOf x0) ∧
        c1.fs.real = c.fs.real ∧
        (∀ p, (∀ u ∈ pre, c.fs.real (Extract.outputName a.specFile u) ≠ p) → c1.fs.files.get? p = c.fs.files.get? p) ∧
        (Extract.report show_ a t (interpretScan env reg ⟨x0, h⟩).1.scan c1).2 = none ∧
        ∀ p, (∀ u ∈ post, c.fs.real (Extract.outputName a.specFile u) ≠ p) →
          (Extract.main env reg show_ a c).1.fs.files.get? p =
          (Extract.report show_ a t (interpretScan env reg ⟨x0, h⟩).1.scan c1).1.fs.files.get? p := by
  unfold Extract.main at hok ⊢
  cases hs : Extract.expandTerms a.scan with
  | error e => rw [hs] at hok; cases hok
  | ok scans =>
    rw [hs] at hok
    simp only [Res.eval_ok, say_fs] at hok ⊢
    cases ho : Sdf.openFile env reg a.specFile (Stored.file (c.fs.at? a.specFile)) (Stored.file (c.fs.at? a.specFile)) with
    | error e => rw [ho] at hok; cases hok
    | ok sdf =>
      rw [ho] at hok
      simp only [Res.eval_ok] at hok ⊢
      generalize hc0 : Con.say a.level.std (p!"read: " ++ a.specFile) (Con.say a.level.std (p!"program: " ++ a.prog) c) = c0 at *
      have hfs : c0.fs = c.fs := by rw [← hc0]; simp
      have hw := open_wellNamed env reg hr _ _ _ _ ho
      have hseen : Seen env reg sdf sdf := ⟨rfl, hw, fun n x h => ⟨x, h, .inl rfl⟩⟩
      have hf := loop_frame env reg show_ a scans ⟨sdf, c0⟩
      refine ⟨scans, sdf, rfl, rfl, ?_, ?_, ?_⟩
      · rw [hf.1]; exact congrArg _ hfs
      · intro p hp
        rw [hf.2 p (by intro t ht; show c0.fs.real _ ≠ p; rw [hfs]; exact hp t ht)]
        show c0.fs.files.get? p = _
        rw [hfs]
      · intro pre t post hsc
        rw [hsc, forEach_append] at hok
        rw [hsc, forEach_append]
        obtain ⟨h1, h2, h3⟩ := andThen_none hok
        rw [h2]
        have k1 := loop_frame env reg show_ a pre ⟨sdf, c0⟩
        have k2 := loop_ok env reg show_ a sdf pre ⟨sdf, c0⟩ hseen h1
        have hs1 : pre = [] → (forEach (Extract.one env reg show_ a) pre ⟨sdf, c0⟩).1.sdf = sdf := by
          rintro rfl; rfl
        generalize (forEach (Extract.one env reg show_ a) pre ⟨sdf, c0⟩).1 = s1 at *
        obtain ⟨h4, h5, h6⟩ := forEach_cons_ok h3
        rw [h5]
        obtain ⟨x0, h, e1, e2, e3, e4, e5, e7⟩ := one_ok env reg show_ a t sdf s1 k2 h4
        have k3 := loop_frame env reg show_ a post (Extract.one env reg show_ a t s1).1
        have hreal1 : s1.con.fs.real = c.fs.real := by rw [k1.1]; exact congrArg _ hfs
        refine ⟨s1.con, x0, h, e1, e2, ?_, hreal1, ?_, e3, ?_⟩
        · exact fun e => e7 (hs1 e)
        · intro p hp
          rw [k1.2 p (by intro u hu; show c0.fs.real _ ≠ p; rw [hfs]; exact hp u hu)]
          show c0.fs.files.get? p = _
          rw [hfs]
        · intro p hp
          rw [k3.2 p (by
            intro u hu
            rw [e4, (report_frame show_ a t _ s1.con).1, hreal1]
            exact hp u hu), e4]

/-- **C62**: a run without error.  The output file of a scan which has data lines and all columns asked
for holds one line for each row of the scan's table, with the columns asked for in the order given; a
scan in which a column is missing is skipped.  (Unless another scan of the run has the same output
file, see C61.) -/
theorem C62_rows (hr : reg.Perm HKey.all) (show_ : PyFloat → Str) (a : Extract.Args) (c : Con)
    (hok : (Extract.main env reg show_ a c).2 = none) (hne : a.column ≠ [])
    (scans : List Str) (hsc : Extract.expandTerms a.scan = .ok scans) (sdf : Sdf)
    (ho : Sdf.openFile env reg a.specFile (Stored.file (c.fs.at? a.specFile)) (Stored.file (c.fs.at? a.specFile)) = .ok sdf)
    (pre : List Str) (t : Str) (post : List Str) (hs : scans = pre ++ t :: post)
    (hp : ∀ u ∈ post, c.fs.real (Extract.outputName a.specFile u) ≠ c.fs.real (Extract.outputName a.specFile t))
    (x : Obj) (hx : sdf.getScan (.str t) = .ok (some x)) (hf : Fresh x)
    (hl : dataLinesOf (scanLines x.raw) ≠ []) :
    ∃ names, ColumnNames x.raw names ∧
      ((∀ l ∈ a.column, l ∈ names) →
        (p!"_mca_" ∉ names ∨ ∀ l ∈ dataLinesOf (scanLines x.raw), isMcaLine l = false) →
        ∃ rows text, ScanRows x.raw names rows ∧ RowsText show_ a t names rows text ∧
          (Extract.main env reg show_ a c).1.fs.at? (Extract.outputName a.specFile t) = some (.text (some text) 0 0)) ∧
      ((∃ l ∈ a.column, l ∉ names) →
        (∀ u ∈ pre, c.fs.real (Extract.outputName a.specFile u) ≠ c.fs.real (Extract.outputName a.specFile t)) →
        SameFile c.fs (Extract.main env reg show_ a c).1.fs (Extract.outputName a.specFile t)) := by
  obtain ⟨scans', sdf', q1, q2, q3, q4, q5⟩ := run_scan env reg hr show_ a c hok
  rw [hsc] at q1; cases q1
  rw [ho] at q2; cases q2
  obtain ⟨c1, x0, h, e1, e2, _, e3, e4, e5, e6⟩ := q5 pre t post hs
  rw [hx] at e1; cases e1
  obtain ⟨labels, names, nm, lines, h1, h2, h3, h4, h5, h6, h7, h8, h9⟩ := interp_data env reg hr ⟨x, h⟩ hf e2 hl
  refine ⟨names, ⟨labels, h1, h3⟩, ?_, ?_⟩
  · intro hc hm
    obtain ⟨rows, sp, a1, a2, _⟩ := h9 (hm.imp id (fun h => by
      unfold hasMca
      rw [List.any_eq_false]
      intro l hl
      have := h l hl
      unfold isMcaLine startsWith at this
      simp only [Bool.and_eq_true, decide_eq_true_eq, beq_iff_eq, not_and]
      intro _ e
      rw [List.isPrefixOf_iff_prefix.2 (by rw [← e]; exact List.take_prefix _ _)] at this
      cases this))
    obtain ⟨text, b1, b2⟩ := report_rows show_ a t _ c1 names rows sp h2 a1 hne hc e5
    refine ⟨rows, text, ⟨nm, lines, h6, h7, a2⟩, b1, ?_⟩
    unfold Fs.at?
    rw [q3, e6 _ hp, b2, ← e3]
    exact Dict.get?_set_self _ _ _
  · intro hc hpre
    obtain ⟨_, b2, _⟩ := report_missing show_ a t _ c1 names h2 hc
    unfold SameFile Fs.at?
    rw [q3, e6 _ hp, b2, e4 _ hpre]

/-- **C62**: the output file of a scan without data lines which has the labels asked for holds only
comments. -/
theorem C62_no_data (hr : reg.Perm HKey.all) (show_ : PyFloat → Str) (a : Extract.Args) (c : Con)
    (hok : (Extract.main env reg show_ a c).2 = none)
    (scans : List Str) (hsc : Extract.expandTerms a.scan = .ok scans) (sdf : Sdf)
    (ho : Sdf.openFile env reg a.specFile (Stored.file (c.fs.at? a.specFile)) (Stored.file (c.fs.at? a.specFile)) = .ok sdf)
    (pre : List Str) (t : Str) (post : List Str) (hs : scans = pre ++ t :: post)
    (hp : ∀ u ∈ post, c.fs.real (Extract.outputName a.specFile u) ≠ c.fs.real (Extract.outputName a.specFile t))
    (x : Obj) (hx : sdf.getScan (.str t) = .ok (some x)) (hf : Fresh x)
    (hl : dataLinesOf (scanLines x.raw) = []) :
    ∃ labels, StatedLabels (scanLines x.raw) labels ∧
      ((∀ l ∈ a.column, l ∈ labels) → ∃ text, EmptyText a t text ∧
          (Extract.main env reg show_ a c).1.fs.at? (Extract.outputName a.specFile t) = some (.text (some text) 0 0)) ∧
      ((∃ l ∈ a.column, l ∉ labels) →
        (∀ u ∈ pre, c.fs.real (Extract.outputName a.specFile u) ≠ c.fs.real (Extract.outputName a.specFile t)) →
        SameFile c.fs (Extract.main env reg show_ a c).1.fs (Extract.outputName a.specFile t)) := by
  obtain ⟨scans', sdf', q1, q2, q3, q4, q5⟩ := run_scan env reg hr show_ a c hok
  rw [hsc] at q1; cases q1
  rw [ho] at q2; cases q2
  obtain ⟨c1, x0, h, e1, e2, _, e3, e4, e5, e6⟩ := q5 pre t post hs
  rw [hx] at e1; cases e1
  obtain ⟨hd, labels, h1, h2⟩ := C21_no_data env reg hr ⟨x, h⟩ hf e2 hl
  refine ⟨labels, h1, ?_, ?_⟩
  · intro hc
    obtain ⟨text, b1, b2⟩ := report_empty show_ a t _ c1 labels h2 hd hc e5
    refine ⟨text, b1, ?_⟩
    unfold Fs.at?
    rw [q3, e6 _ hp, b2, ← e3]
    exact Dict.get?_set_self _ _ _
  · intro hc hpre
    obtain ⟨_, b2, _⟩ := report_missing show_ a t _ c1 labels h2 hc
    unfold SameFile Fs.at?
    rw [q3, e6 _ hp, b2, e4 _ hpre]

/-- **C62**: no other files are touched. -/
theorem C62_only_outputs (hr : reg.Perm HKey.all) (show_ : PyFloat → Str) (a : Extract.Args) (c : Con)
    (hok : (Extract.main env reg show_ a c).2 = none)
    (scans : List Str) (hsc : Extract.expandTerms a.scan = .ok scans) (name : Str)
    (h : ∀ t ∈ scans, c.fs.real (Extract.outputName a.specFile t) ≠ c.fs.real name) :
    SameFile c.fs (Extract.main env reg show_ a c).1.fs name := by
  obtain ⟨scans', sdf', q1, q2, q3, q4, q5⟩ := run_scan env reg hr show_ a c hok
  rw [hsc] at q1; cases q1
  unfold SameFile Fs.at?
  rw [q3, q4 _ h]

/-- **C62**: in verbose mode the labels that a scan does not have are reported, in order; otherwise
the scan is skipped silently. -/
theorem C62_missing_reported (show_ : PyFloat → Str) (a : Extract.Args) (n : Str) (x : Obj) (c : Con)
    (names : List Str) (hL : x.L = some names) (hc : ∃ l ∈ a.column, l ∉ names) :
    (Extract.report show_ a n x c).1.printed = c.printed ++
      (if a.level = .verbose then
        (a.column.filter (fun l => decide (l ∉ names))).map (fun l =>
          p!"column label \"" ++ l ++ p!"\" not found in scan #" ++ n ++ p!" ... skipping") else []) :=
  (report_missing show_ a n x c names hL hc).2.2

end

/-- a run of extractSpecScan on the file of C40: two columns of scan 1 in reverse order, scan 2 lacks
them, scan 3 has no data -/
def extractDemo : Res Con :=
  @Extract.main asciiDB saveEnv HKey.all (fun x => match x with | .fin q => intStr q.num ++ p!"/" ++ natStr q.den | _ => p!"nan")
    { specFile := p!"demo.dat", scan := [p!"1-2"], column := [p!"I0", p!"two theta"], level := .verbose }
    { fs := { real := id, writable := fun _ => true, files := [(p!"demo.dat", .text (some saveText) 1 1)] } }

theorem C62_nonvacuous : extractDemo.2 = none ∧
    extractDemo.1.fs.files.keys = [p!"demo.dat", p!"demo_1.dat"] ∧
    (match extractDemo.1.fs.at? p!"demo_1.dat" with
      | some (.text (some t) _ _) => some t
      | _ => none) = some (join p!"\n" [p!"# file: demo.dat", p!"# scan: 1", p!"# I0\ttwo theta",
        p!"1/1\t1/2", p!"3/1\t3/2"]) ∧
    extractDemo.1.printed = [p!"program: extractSpecScan", p!"read: demo.dat", p!"wrote: demo_1.dat",
      p!"column label \"I0\" not found in scan #2 ... skipping",
      p!"column label \"two theta\" not found in scan #2 ... skipping"] := by
  decide +kernel

end S2N.Props

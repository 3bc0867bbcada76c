import Verif.Lemmas.Refresh
/-
C06, C07: `refresh()` and `update_available`.
-/
namespace S2N.Props
open S2N S2N.Py S2N.Spec

/-! ## A file that grows -/

theorem universal_append (a : Str) : ∃ u, ∀ b, universalNewlines (a ++ '\n' :: b) =
    u ++ '\n' :: universalNewlines b := by
  fun_induction universalNewlines a with
  | case1 => exact ⟨[], fun b => by simp [universalNewlines]⟩
  | case2 cs ih =>
    obtain ⟨u, hu⟩ := ih
    exact ⟨'\n' :: u, fun b => by simp [universalNewlines, hu]⟩
  | case3 cs h ih =>
    cases cs with
    | nil => exact ⟨[], fun b => by simp [universalNewlines]⟩
    | cons c cs =>
      obtain ⟨u, hu⟩ := ih
      have hc : c ≠ '\n' := by rintro rfl; exact h cs rfl
      refine ⟨'\n' :: u, fun b => ?_⟩
      rw [List.cons_append, List.cons_append, universalNewlines, List.cons_append, ← hu b]
      · rfl
      · intro cs' e
        simp only [List.cons.injEq] at e
        exact hc e.1
  | case4 c cs h1 h2 ih =>
    obtain ⟨u, hu⟩ := ih
    refine ⟨c :: u, fun b => ?_⟩
    rw [List.cons_append, universalNewlines, hu, List.cons_append]
    · intro cs' e1 e2
      exact h2 e1
    · intro e1
      exact h2 e1

theorem aux_append (u v cur : Str) (st : Bool) (hu : '\r' ∉ u) :
    splitlinesAux (u ++ '\n' :: v) cur st = splitlinesAux (u ++ ['\n']) cur st ++ splitlines v := by
  induction u generalizing cur st with
  | nil =>
    rw [List.nil_append, List.nil_append, splitlinesAux_nl, splitlinesAux_nl]
    rfl
  | cons c cs ih =>
    have hc : c ≠ '\r' := by rintro rfl; simp at hu
    have hcs : '\r' ∉ cs := fun h => hu (by simp [h])
    rw [List.cons_append, List.cons_append, aux_cons c _ cur st hc, aux_cons c _ cur st hc]
    split
    · rw [ih _ _ hcs]; rfl
    · exact ih _ _ hcs

/-- text that ends with a newline: the lines of a longer text are its lines and then others -/
theorem fileLines_append (a more : Str) :
    fileLines (a ++ ['\n'] ++ more) = fileLines (a ++ ['\n']) ++ fileLines more := by
  obtain ⟨u, hu⟩ := universal_append a
  unfold fileLines
  have h1 : universalNewlines (a ++ ['\n'] ++ more) = u ++ '\n' :: universalNewlines more := by
    rw [List.append_assoc]; exact hu more
  have h2 : universalNewlines (a ++ ['\n']) = u ++ ['\n'] := hu []
  have hcr : '\r' ∉ u := by
    intro h
    have := universal_no_cr (a ++ ['\n'])
    rw [h2] at this
    exact this (by simp [h])
  rw [h1, h2]
  exact aux_append u _ [] false hcr

theorem grp_append (ls extra : List Str) (gs : List (List Str)) (g : List Str)
    (h : (grp ls).2 = gs ++ [g]) :
    (grp (ls ++ extra)).2 = gs ++ [g ++ (grp extra).1] ++ (grp extra).2 := by
  have h1 := grp_flatten ls
  have h2 := grp_lead ls
  have h3 := grp_groups ls
  rw [h] at h1 h3
  have := grp_unique (ls ++ extra) (grp ls).1 (gs ++ [g ++ (grp extra).1] ++ (grp extra).2)
    (by
      conv_lhs => rw [h1, grp_flatten extra]
      simp)
    h2
    (by
      intro x hx
      rw [List.append_assoc, List.mem_append] at hx
      rcases hx with hx | hx
      · exact h3 x (by simp [hx])
      · rcases List.mem_append.1 hx with hx | hx
        · simp only [List.mem_singleton] at hx
          subst hx
          obtain ⟨first, rest, rfl, hf, hr⟩ := h3 g (by simp)
          refine ⟨first, rest ++ (grp extra).1, rfl, hf, ?_⟩
          intro l hl
          rcases List.mem_append.1 hl with hl | hl
          · exact hr l hl
          · exact grp_lead extra l hl
        · exact grp_groups extra x hx)
  rw [this]

theorem aux_prefix (a b cur : Str) (st : Bool) (ha : '\r' ∉ a) :
    ∃ tail, splitlinesAux (a ++ b) cur st = (splitlinesAux a cur st).dropLast ++ tail := by
  induction a generalizing cur st with
  | nil =>
    refine ⟨splitlinesAux b cur st, ?_⟩
    cases st <;> simp [splitlinesAux]
  | cons c cs ih =>
    have hc : c ≠ '\r' := by rintro rfl; simp at ha
    have hcs : '\r' ∉ cs := fun h => ha (by simp [h])
    rw [List.cons_append, aux_cons c _ cur st hc, aux_cons c _ cur st hc]
    split
    · obtain ⟨t, ht⟩ := ih [] false hcs
      rw [ht]
      cases hx : splitlinesAux cs [] false with
      | nil => exact ⟨cur.reverse :: t, by simp⟩
      | cons y ys => exact ⟨t, by simp [List.dropLast]⟩
    · exact ih _ _ hcs

theorem rstrip_prefix_append (a b : Str) (h : ∀ c, a.getLast? = some c → isSpace c = false) :
    a <+: rstrip (a ++ b) := by
  cases ha : a.reverse with
  | nil =>
    have : a = [] := by simpa using ha
    rw [this]; exact List.nil_prefix
  | cons c cs =>
    have hc : isSpace c = false := by
      apply h
      rw [List.getLast?_eq_head?_reverse, ha]; rfl
    unfold rstrip rstripP
    rw [List.reverse_append, ha]
    have : ∀ b' : Str, ∃ t, (List.dropWhile isSpace (b' ++ c :: cs)) = t ++ c :: cs := by
      intro b'
      induction b' with
      | nil => exact ⟨[], by simp [hc]⟩
      | cons d ds ih =>
        rw [List.cons_append, List.dropWhile_cons]
        split
        · exact ih
        · exact ⟨d :: ds, rfl⟩
    obtain ⟨t, ht⟩ := this b.reverse
    rw [ht, List.reverse_append, ← ha, List.reverse_reverse]
    exact List.prefix_append _ _

theorem strip_prefix (a b : Str) (h : strip a ≠ []) : strip a <+: strip (a ++ b) := by
  have hl : lstrip (a ++ b) = lstrip a ++ b := by
    have : lstrip a ≠ [] := by
      intro e
      apply h
      unfold strip
      rw [e]; rfl
    unfold lstrip at this ⊢
    clear h
    induction a with
    | nil => simp at this
    | cons c cs ih =>
      rw [List.cons_append, List.dropWhile_cons, List.dropWhile_cons]
      rw [List.dropWhile_cons] at this
      split
      · rename_i hc
        rw [if_pos hc] at this
        exact ih this
      · rfl
  have hp := rstripP_prefix isSpace (lstrip a)
  obtain ⟨ws, hws⟩ := hp
  show rstrip (lstrip a) <+: rstrip (lstrip (a ++ b))
  rw [hl]
  have e : lstrip a ++ b = rstrip (lstrip a) ++ (ws ++ b) := by
    rw [← List.append_assoc]
    congr 1
    exact hws.symm
  rw [e]
  apply rstrip_prefix_append
  intro c hc
  exact rstripP_getLast isSpace (lstrip a) c hc

theorem mem_strip {c : Char} {t : Str} (h : c ∈ strip t) : c ∈ t := by
  unfold strip at h
  have h1 := (rstripP_prefix isSpace (lstrip t)).subset h
  unfold lstrip at h1
  exact (List.dropWhile_suffix isSpace).subset h1

/-- a scan with more than five lines keeps its first five lines when text is appended -/
theorem beginning_grow (l w : Str) (hcr : '\r' ∉ l) (h : 6 ≤ (splitlines (strip l)).length) :
    Sdf.beginning (l ++ w) = Sdf.beginning l := by
  have hne : strip l ≠ [] := by
    intro e; rw [e] at h; simp [splitlines, splitlinesAux] at h
  obtain ⟨b, hb⟩ := strip_prefix l w hne
  unfold Sdf.beginning
  rw [← hb]
  obtain ⟨tail, ht⟩ := aux_prefix (strip l) b [] false (fun h => hcr (mem_strip h))
  have ht : splitlines (strip l ++ b) = (splitlines (strip l)).dropLast ++ tail := ht
  rw [ht, List.take_append_of_le_length (by rw [List.length_dropLast]; omega), List.dropLast_eq_take,
    List.take_take, Nat.min_eq_left (by omega)]

theorem beginning_eq (t : Str) : Sdf.beginning t = join ['\n'] (opening t) := rfl

theorem opening_ne_nil (t : Str) : ∀ l ∈ opening t, ∃ r, l = '#' :: r := by
  intro l hl
  have := (List.mem_filter.1 hl).2
  cases l with
  | nil => simp [startsWith] at this
  | cons c r => simp [startsWith] at this; exact ⟨r, by rw [this]⟩

theorem opening_no_nl (t : Str) : ∀ l ∈ opening t, '\n' ∉ l := by
  intro l hl hn
  have := List.mem_of_mem_take (List.mem_of_mem_filter hl)
  have := splitlines_no_break (strip t) l this '\n' hn
  simp [isLineBreak] at this

theorem opening_inj {t u : Str} (h : Sdf.beginning t = Sdf.beginning u) : opening t = opening u := by
  rw [beginning_eq, beginning_eq] at h
  by_cases ht : opening t = []
  · by_cases hu : opening u = []
    · rw [ht, hu]
    · exfalso
      rw [ht] at h
      obtain ⟨l, ls, e⟩ := List.exists_cons_of_ne_nil hu
      obtain ⟨r, hr⟩ := opening_ne_nil u l (by rw [e]; simp)
      rw [e, hr] at h
      cases ls <;> simp [join] at h
  · by_cases hu : opening u = []
    · exfalso
      rw [hu] at h
      obtain ⟨l, ls, e⟩ := List.exists_cons_of_ne_nil ht
      obtain ⟨r, hr⟩ := opening_ne_nil t l (by rw [e]; simp)
      rw [e, hr] at h
      cases ls <;> simp [join] at h
    · rw [← splitC_join '\n' (opening t) ht (opening_no_nl t),
        ← splitC_join '\n' (opening u) hu (opening_no_nl u), h]


/-! ## Histories -/

section
variable [UniDB]

theorem access_shape (env : Env) (reg : List HKey) (n attr : Str) (s : Sdf) :
    shape (s.access env reg n attr).1 = shape s := by
  unfold Sdf.access
  cases hg : s.scans.get? n with
  | none => rfl
  | some x =>
    dsimp only
    have hid := readAttr_ident env reg attr ⟨x, s.headerOf x⟩
    generalize readAttr env reg attr ⟨x, s.headerOf x⟩ = r at hid ⊢
    simp only [ctxIdent, Prod.mk.injEq] at hid
    simp only [shape, Shape.mk.injEq, true_and, and_true]
    constructor
    · exact map_set_ident _ _ _ _ _ (by rw [hid.2, Sdf.headerOf])
    · have : ∀ d : Dict Obj, d.get? n = some x →
          (d.set n r.1.scan).map (fun p => (p.1, p.2.ident)) = d.map (fun p => (p.1, p.2.ident)) := by
        intro d
        induction d with
        | nil => intro h; simp [Dict.get?] at h
        | cons p d ih =>
          obtain ⟨k, v⟩ := p
          intro h
          rw [Dict.get?_cons] at h
          simp only [Dict.set]
          split
          · rename_i e
            subst e
            simp only [if_true, Option.some.injEq] at h
            subst h
            simp [hid.1]
          · rename_i e
            rw [if_neg (by simpa using e)] at h
            simp [ih h]
      exact this _ hg

/-- sections of a text, as `dissect_file` gives them -/
def sectionsOf (T : Str) : List Str := (grp (fileLines T)).2.map (join ['\n'])

omit [UniDB] in
theorem dissect_sections (T : Str) (texts : List Str) (h : dissectFile (.file (some T)) = .ok texts) :
    texts = sectionsOf T := by
  have := (C01_partition T texts h).2
  rwa [sectionsOf_grp] at this

omit [UniDB] in
theorem core_nodup {sh : Shape} {name : Str} {ts : List Str}
    (h : core sh = core (ts.foldl absStep ⟨name, [], [], none⟩)) : (Dict.keys sh.scans).Nodup := by
  have h2 := (fold_scansOk ts ⟨name, [], [], none⟩ ⟨by simp [Dict.keys], by simp⟩).nodup
  have h3 : sh.scans.map (fun p => (p.1, stripped p.2)) =
      (ts.foldl absStep ⟨name, [], [], none⟩).scans.map (fun p => (p.1, stripped p.2)) :=
    congrArg (fun x => x.2.2) h
  have := congrArg (List.map Prod.fst) h3
  simp only [List.map_map, Function.comp_def] at this
  unfold Dict.keys at h2 ⊢
  rw [this]; exact h2

omit [UniDB] in
theorem refresh_sections (T more : Str) (s : Sdf) (h : Safe T more s) :
    ∃ pre l l' new, sectionsOf T = pre ++ [l] ∧ sectionsOf (T ++ more) = pre ++ [l'] ++ new ∧
      isScanText l = true ∧ isScanText l' = true ∧ headline l = headline l' ∧
      Sdf.beginning l' = Sdf.beginning l := by
  obtain ⟨a, rfl⟩ := h.newline
  obtain ⟨pre, l, e, hl, hor⟩ := h.ends (sectionsOf (a ++ ['\n'])) ((sectionsOf_grp _ _).2 rfl)
  have hlines := fileLines_append a more
  -- groups of lines
  have hg : ∃ gs g, (grp (fileLines (a ++ ['\n']))).2 = gs ++ [g] ∧ pre = gs.map (join ['\n']) ∧
      l = join ['\n'] g := by
    unfold sectionsOf at e
    obtain ⟨x, y, h1, h2, h3⟩ := List.map_eq_append_iff.1 e
    match y, h3 with
    | [g], h3 => exact ⟨x, g, h1, h2.symm, by simpa using h3.symm⟩
  obtain ⟨gs, g, hgs, rfl, rfl⟩ := hg
  have hgr := grp_append _ (fileLines more) gs g hgs
  rw [← hlines] at hgr
  refine ⟨gs.map (join ['\n']), join ['\n'] g, join ['\n'] (g ++ (grp (fileLines more)).1),
    (grp (fileLines more)).2.map (join ['\n']), e, ?_, hl, ?_⟩
  · unfold sectionsOf
    rw [hgr]
    simp
  · by_cases hlead : (grp (fileLines more)).1 = []
    · rw [hlead, List.append_nil]
      exact ⟨hl, rfl, rfl⟩
    · -- lines were appended to the last scan
      have h6 : 6 ≤ (splitlines (strip (join ['\n'] g))).length := by
        rcases hor with h | h
        · exact h
        · exfalso
          cases hm : fileLines more with
          | nil => rw [hm] at hlead; exact hlead rfl
          | cons x xs =>
            have := h x xs hm
            rw [hm, grp, if_pos ((isSectionStart_iff x).2 this)] at hlead
            exact hlead rfl
      obtain ⟨first, rest, rfl, hst, _⟩ := grp_groups (fileLines (a ++ ['\n'])) g (by rw [hgs]; simp)
      have hmem : ∀ x ∈ first :: rest, ∀ c ∈ x, isLineBreak c = false := by
        intro x hx
        apply splitlines_no_break (universalNewlines (a ++ ['\n']))
        show x ∈ fileLines (a ++ ['\n'])
        rw [grp_flatten (fileLines (a ++ ['\n'])), hgs]
        simp only [List.mem_append, List.mem_flatten]
        exact Or.inr ⟨_, Or.inr (by simp), hx⟩
      have hmem2 : ∀ x ∈ (grp (fileLines more)).1, ∀ c ∈ x, isLineBreak c = false := by
        intro x hx
        apply splitlines_no_break (universalNewlines more)
        show x ∈ fileLines more
        rw [grp_flatten (fileLines more)]
        simp [hx]
      have hst' := (isSectionStart_iff first).1 hst
      have hfne := startsSection_ne_nil hst'
      obtain ⟨ls1, e1⟩ := splitlines_head first rest hmem hfne
      obtain ⟨ls2, e2⟩ := splitlines_head first (rest ++ (grp (fileLines more)).1)
        (by intro x hx
            rw [← List.cons_append] at hx
            rcases List.mem_append.1 hx with h | h
            · exact hmem x h
            · exact hmem2 x h) hfne
      obtain ⟨w, ws, hw⟩ : ∃ w ws, splitWs first = w :: ws := by
        unfold StartsSection firstWordIs at hst'
        cases hs : splitWs first with
        | nil => rw [hs] at hst'; simp at hst'
        | cons w ws => exact ⟨w, ws, rfl⟩
      have hcr : '\r' ∉ join ['\n'] (first :: rest) := by
        intro hc
        have : ∀ ls : List Str, (∀ x ∈ ls, ∀ c ∈ x, isLineBreak c = false) → '\r' ∉ join ['\n'] ls := by
          intro ls
          induction ls with
          | nil => simp [join]
          | cons x xs ih =>
            intro h hc
            have hx : '\r' ∉ x := fun hc => by
              have := h x (by simp) '\r' hc
              simp [isLineBreak] at this
            by_cases hxs : xs = []
            · subst hxs; exact hx hc
            · rw [join_cons _ _ _ hxs] at hc
              simp only [List.mem_append, List.mem_singleton] at hc
              rcases hc with (hc | hc) | hc
              · exact hx hc
              · exact absurd hc (by decide)
              · exact ih (fun y hy => h y (by simp [hy])) hc
        exact this _ hmem hc
      have happ : ∀ xs ys : List Str, xs ≠ [] → ys ≠ [] →
          join ['\n'] (xs ++ ys) = join ['\n'] xs ++ ('\n' :: join ['\n'] ys) := by
        intro xs
        induction xs with
        | nil => intro ys h; exact absurd rfl h
        | cons x xs ih =>
          intro ys _ hy
          by_cases hxs : xs = []
          · subst hxs
            rw [List.singleton_append, join_cons _ _ _ hy, join_singleton]; simp
          · rw [List.cons_append, join_cons _ _ _ (by simp [hxs]), join_cons _ _ _ hxs, ih ys hxs hy]
            simp
      refine ⟨?_, ?_, ?_⟩
      · unfold isScanText at hl ⊢
        have h1 := splitWs_join_head first rest w ws hw
        have h2 := splitWs_join_head first (rest ++ (grp (fileLines more)).1) w ws hw
        rw [h1] at hl
        rw [List.cons_append, h2]
        exact hl
      · unfold headline
        rw [List.cons_append, e1, e2]
        rfl
      · rw [happ _ _ (by simp) hlead]
        exact beginning_grow _ _ hcr h6

theorem reached_core (env : Env) (reg : List HKey) (hr : reg.Perm HKey.all) (name T : Str) (s : Sdf)
    (h : Reached env reg name T s) :
    core (shape s) = core ((sectionsOf T).foldl absStep ⟨name, [], [], none⟩) := by
  induction h with
  | opened T f stat s hf ho =>
    obtain ⟨texts, s1, h1, h2, h3, h4⟩ := open_ok env reg hr name f stat s ho
    obtain ⟨e1, e2, e3, _⟩ := finish_ok stat s1 s h4
    rw [hf] at h1
    rw [← dissect_sections T texts h1, ← h3]
    unfold core shape
    rw [e1, e2, e3]
  | accessed T s n attr _ ih => rw [access_shape]; exact ih
  | unchanged T s f stat _ hu ih =>
    unfold Sdf.refresh
    rw [hu]
    exact ih
  | refreshed T more s f stat _ hf hsafe hu hok ih =>
    obtain ⟨pre, l, l', new, hT, hT', hl, hl', hh, hb⟩ := refresh_sections T more s hsafe
    obtain ⟨n, x, hlast, hls, hpos⟩ := hsafe.last
    unfold Sdf.refresh at hok ⊢
    rw [hu] at hok ⊢
    dsimp only at hok ⊢
    have hread : (Sdf.read env reg f stat s).2 = none := by
      cases hx : (Sdf.read env reg f stat s).2 with
      | none => rfl
      | some e => rw [hx] at hok; dsimp only at hok; rw [hx] at hok; exact hok
    rw [hread]
    dsimp only
    unfold Sdf.read at hread ⊢
    cases hd : dissectFile f.node with
    | error e => rw [hd] at hread; simp at hread
    | ok texts =>
      rw [hd] at hread
      simp only [Res.eval_ok] at hread ⊢
      have hsec := sections_text f.node texts hd
      rw [hf] at hd
      have ht := dissect_sections _ _ hd
      cases hfe : forEach (Sdf.readBlock env reg) texts s with
      | mk s1 e1 =>
        rw [hfe] at hread
        cases e1 with
        | some e => simp [Res.andThen] at hread
        | none =>
          have hab := blocks_absR env reg hr texts hsec s
            (by intro r hr'; rw [hls] at hr'; simp only [Option.some.injEq] at hr'; subst hr'; exact hpos)
            (by rw [hfe])
          rw [hfe] at hab
          simp only at hab
          cases hfin : Sdf.finish stat s1 with
          | mk s2 e2 =>
            have hre : Res.andThen (s1, none) (Sdf.finish stat) = Sdf.finish stat s1 := rfl
            rw [hre, hfin] at hread
            simp only at hread
            subst hread
            rw [hre, hfin]
            obtain ⟨q1, q2, q3, _⟩ := finish_ok stat s1 s2 hfin
            have hc : core (shape s2) = core (shape s1) := by
              unfold core shape
              rw [q1, q2, q3]
            rw [hc, hab, ht, hT']
            have hsc : s.scans = s.scans.dropLast ++ [(n, x)] :=
              (List.dropLast_append_getLast? _ hlast).symm
            apply fold_refresh name pre new l l' (shape s) n x.ident
              (s.scans.dropLast.map (fun p => (p.1, p.2.ident))) (by rw [ih, hT]) _ (core_nodup ih)
              hls hl hl' hh hb
            · have := hsafe.distinct (sectionsOf (T ++ more)) ((sectionsOf_grp _ _).2 rfl)
              rw [hT'] at this
              exact this.imp (fun h e => h (opening_inj e))
            · show s.scans.map (fun p => (p.1, p.2.ident)) = _
              conv_lhs => rw [hsc]
              simp

omit [UniDB] in
theorem view_core {s s0 : Sdf} (h : core (shape s) = core (shape s0)) : scanView s = scanView s0 := by
  have h2 : s.headers.map Obj.ident = s0.headers.map Obj.ident := congrArg (fun x => x.2.1) h
  have h3 : (shape s).scans.map (fun p => (p.1, stripped p.2)) =
      (shape s0).scans.map (fun p => (p.1, stripped p.2)) := congrArg (fun x => x.2.2) h
  have key : ∀ s : Sdf, scanView s = ((shape s).scans.map (fun p => (p.1, stripped p.2))).map
      (fun p => (p.1, p.2.raw, p.2.scanCmd,
        ((s.headers.map Obj.ident).map Ident.raw).getD p.2.hdrIdx [])) := by
    intro s
    unfold scanView shape
    simp only [List.map_map, Function.comp_def, stripped, Obj.ident]
    apply List.map_congr_left
    intro p _
    simp only [Prod.mk.injEq, true_and]
    simp only [List.getD_eq_getElem?_getD, List.getElem?_map]
    cases s.headers[p.2.hdrIdx]? <;> rfl
  rw [key s, key s0, h2, h3]

/-- C06 (partial): in every history of a file that only grows safely (see `Safe`), a file object that
follows it by `refresh()` has the same scans — names, order, texts, commands and header texts — as
one made by reading the current content afresh.  Missing: growth that is not `Safe`, for which the
claim is false (`C06_dates_out_of_order`, `C06_short_scan`, `C06_header_after_last_scan`,
`C06_no_scan_yet`). -/
theorem C06_refresh_partial (env : Env) (reg : List HKey) (hr : reg.Perm HKey.all) (name T : Str)
    (s s0 : Sdf) (f stat : FileSt) (h : Reached env reg name T s) (hf : f.node = .file (some T))
    (ho : Sdf.openFile env reg name f stat = .ok s0) : scanView s = scanView s0 := by
  apply view_core
  rw [reached_core env reg hr name T s h,
    reached_core env reg hr name T s0 (.opened T f stat s0 hf ho)]

end

/-! ## Examples -/

/-- a file as the model sees it, last changed at time `m` -/
def fileAt (t : Str) (m : Int) : FileSt := ⟨.file (some t), m, t.length⟩

/-- what `scanView` gives -/
abbrev View := List (Str × Str × Str × Str)
instance : DecidableEq View := inferInstance
instance : DecidableEq (Option View) := inferInstance

/-- open the file with content `t`, then refresh when its content is `u`: the scans (None if an
exception was raised), and what a fresh reading of `u` gives -/
def follow (t u : Str) : Option View × Option View :=
  (match @Sdf.openFile asciiDB demoEnv HKey.all p!"demo.dat" (fileAt t 1) (fileAt t 1) with
   | .error _ => none
   | .ok s =>
     match (@Sdf.refresh asciiDB demoEnv HKey.all (fileAt u 2) (fileAt u 2) s).1 with
     | (s', none) => some (scanView s')
     | _ => none,
   match @Sdf.openFile asciiDB demoEnv HKey.all p!"demo.dat" (fileAt u 2) (fileAt u 2) with
   | .error _ => none
   | .ok s => some (scanView s))

def scanA : Str := p!"#S 1 ascan\n#D Wed Jun 16 18:24:36 2010\n#N 2\n#L x  y\n1 2\n3 4\n"
def scanB : Str := p!"#S 2 ascan\n#D Wed Jun 16 18:25:36 2010\n#N 2\n#L x  y\n1 2\n3 4\n"
def scanC : Str := p!"#S 3 ascan\n#D Wed Jun 16 18:26:36 2010\n#N 2\n#L x  y\n1 2\n3 4\n"
def demoHead : Str := p!"#F demo\n#E 10\n#D Wed Jun 16 18:24:00 2010\n#C demo\n"

/-- C06: the file of the example grows: the last scan by a line, then another scan -/
theorem C06_example : follow (demoHead ++ scanA ++ scanB) (demoHead ++ scanA ++ scanB ++ p!"5 6\n" ++ scanC) =
    (some ([(p!"1", strip scanA, p!"ascan", p!"#E 10\n#D Wed Jun 16 18:24:00 2010\n#C demo"),
           (p!"2", scanB ++ p!"5 6", p!"ascan", p!"#E 10\n#D Wed Jun 16 18:24:00 2010\n#C demo"),
           (p!"3", strip scanC, p!"ascan", p!"#E 10\n#D Wed Jun 16 18:24:00 2010\n#C demo")] : View),
     some ([(p!"1", strip scanA, p!"ascan", p!"#E 10\n#D Wed Jun 16 18:24:00 2010\n#C demo"),
           (p!"2", scanB ++ p!"5 6", p!"ascan", p!"#E 10\n#D Wed Jun 16 18:24:00 2010\n#C demo"),
           (p!"3", strip scanC, p!"ascan", p!"#E 10\n#D Wed Jun 16 18:24:00 2010\n#C demo")] : View)) := by
  decide +kernel

/-- the parts of `Safe` that can be computed -/
def safeB (T more : Str) (s : Sdf) : Bool :=
  (T.getLast? == some '\n') &&
  (match (sectionsOf T).getLast? with
    | some l => isScanText l && decide (6 ≤ (splitlines (strip l)).length)
    | none => false) &&
  (match s.scans.getLast? with
    | some p => s.lastScan == some (.str p.1) && (match parseFloat p.1 with
      | some (.fin q) => decide (1 ≤ q)
      | _ => false)
    | none => false) &&
  decide (((sectionsOf (T ++ more)).filter isScanText).Pairwise (fun t u => opening t ≠ opening u))

theorem safe_of_safeB {T more : Str} {s : Sdf} (h : safeB T more s = true) : Safe T more s := by
  unfold safeB at h
  simp only [Bool.and_eq_true, decide_eq_true_eq, beq_iff_eq] at h
  obtain ⟨⟨⟨h1, h2⟩, h3⟩, h4⟩ := h
  refine ⟨⟨T.dropLast, (List.dropLast_append_getLast? _ h1).symm⟩, ?_, ?_, ?_⟩
  · intro texts ht
    rw [sectionsOf_grp] at ht
    have ht : texts = sectionsOf T := ht
    subst ht
    cases hl : (sectionsOf T).getLast? with
    | none => rw [hl] at h2; simp at h2
    | some l =>
      rw [hl] at h2
      simp only [Bool.and_eq_true, decide_eq_true_eq] at h2
      exact ⟨_, l, (List.dropLast_append_getLast? _ hl).symm, h2.1, Or.inl h2.2⟩
  · cases hl : s.scans.getLast? with
    | none => rw [hl] at h3; simp at h3
    | some p =>
      rw [hl] at h3
      simp only [Bool.and_eq_true, beq_iff_eq] at h3
      refine ⟨p.1, p.2, rfl, h3.1, ?_⟩
      have h5 := h3.2
      cases hp : parseFloat p.1 with
      | none => rw [hp] at h5; simp at h5
      | some v =>
        rw [hp] at h5
        cases v <;> simp at h5
        exact ⟨_, hp, h5⟩
  · intro texts ht
    rw [sectionsOf_grp] at ht
    have ht : texts = sectionsOf (T ++ more) := ht
    subst ht
    exact h4

/-- C06: the hypotheses of `C06_refresh_partial` are met by a file that is opened, whose scan 1 is
interpreted, and that then grows by a line of its last scan and another scan. -/
theorem C06_nonvacuous : ∃ s, @Reached asciiDB demoEnv HKey.all p!"demo.dat"
    (demoHead ++ scanA ++ scanB ++ (p!"5 6\n" ++ scanC)) s ∧ s.scans.keys = [p!"1", p!"2", p!"3"] := by
  letI : UniDB := asciiDB
  have hk : (match @Sdf.openFile asciiDB demoEnv HKey.all p!"demo.dat" (fileAt (demoHead ++ scanA ++ scanB) 1)
      (fileAt (demoHead ++ scanA ++ scanB) 1) with
      | .error _ => false
      | .ok s =>
        let s1 := (s.access demoEnv HKey.all p!"1" p!"data").1
        let u := fileAt (demoHead ++ scanA ++ scanB ++ (p!"5 6\n" ++ scanC)) 2
        safeB (demoHead ++ scanA ++ scanB) (p!"5 6\n" ++ scanC) s1 &&
        (match s1.updateAvailable u with | .ok b => b | .error _ => false) &&
        (s1.refresh demoEnv HKey.all u u).1.2.isNone &&
        ((s1.refresh demoEnv HKey.all u u).1.1.scans.keys == [p!"1", p!"2", p!"3"])) = true := by
    decide +kernel
  cases ho : @Sdf.openFile asciiDB demoEnv HKey.all p!"demo.dat" (fileAt (demoHead ++ scanA ++ scanB) 1)
      (fileAt (demoHead ++ scanA ++ scanB) 1) with
  | error e => rw [ho] at hk; simp at hk
  | ok s =>
    rw [ho] at hk
    simp only [Bool.and_eq_true, beq_iff_eq, Option.isNone_iff_eq_none] at hk
    obtain ⟨⟨⟨h1, h2⟩, h3⟩, h4⟩ := hk
    refine ⟨_, .refreshed _ _ _ _ _ (.accessed _ _ p!"1" p!"data" (.opened _ _ _ _ rfl ho)) rfl
      (safe_of_safeB h1) ?_ h3, h4⟩
    generalize Sdf.updateAvailable _ _ = r at h2 ⊢
    cases r with
    | error e => simp at h2
    | ok b => simp at h2; rw [h2]

/-- C06 fails when the last scan of the file is not the latest by date: `refresh()` repeats scans. -/
theorem C06_dates_out_of_order :
    (let r := follow (scanB ++ scanA) (scanB ++ scanA ++ scanC)
     (r.1.map (List.map Prod.fst), r.2.map (List.map Prod.fst))) =
    (some [p!"1", p!"2", p!"1.1", p!"3"], some [p!"2", p!"1", p!"3"]) := by decide +kernel

/-- C06 fails when the last scan had fewer than five lines: it is kept as it was and the longer one
becomes a repetition of it. -/
theorem C06_short_scan :
    (let t := p!"#S 1 ascan\n#D Wed Jun 16 18:24:36 2010\n"
     follow t (t ++ p!"#N 2\n")) =
    (some ([(p!"1", p!"#S 1 ascan\n#D Wed Jun 16 18:24:36 2010", p!"ascan", p!""),
           (p!"1.1", p!"#S 1 ascan\n#D Wed Jun 16 18:24:36 2010\n#N 2", p!"ascan", p!"")] : View),
     some ([(p!"1", p!"#S 1 ascan\n#D Wed Jun 16 18:24:36 2010\n#N 2", p!"ascan", p!"")] : View)) := by
  decide +kernel

/-- C06 fails when a header follows the last scan: that scan gets the later header. -/
theorem C06_header_after_last_scan :
    (let t := p!"#E 10\n" ++ scanA ++ p!"#E 20\n"
     let r := follow t (t ++ p!"#C x\n")
     (r.1.map (List.map (fun p => p.2.2.2)), r.2.map (List.map (fun p => p.2.2.2)))) =
    (some [p!"#E 20"], some [p!"#E 10"]) := by decide +kernel

/-- C06 fails when there was no scan at the first reading: `refresh()` raises an exception. -/
theorem C06_no_scan_yet :
    (let r := follow demoHead (demoHead ++ scanA)
     (r.1.map (List.map Prod.fst), r.2.map (List.map Prod.fst))) = (none, some [p!"1"]) := by
  decide +kernel

/-! ## C07 -/

section
variable [UniDB]

omit [UniDB] in
/-- C07: the answer of `update_available` for a file that exists -/
theorem C07_decision (f : FileSt) (s : Sdf) (hf : f.node ≠ .missing) :
    (s.updateAvailable f = .ok false ↔ (f.mtime = s.mtime ∧ f.size = s.filesize)) ∧
    (s.updateAvailable f = .ok true ↔ ¬ (f.mtime = s.mtime ∧ f.size = s.filesize)) := by
  unfold Sdf.updateAvailable
  cases hn : f.node with
  | missing => exact absurd hn hf
  | dir =>
    constructor
    · simp; constructor <;> (rintro ⟨a, b⟩; exact ⟨a.symm, b.symm⟩)
    · simp; rw [eq_comm, @eq_comm _ f.size]; tauto
  | file c =>
    constructor
    · simp; constructor <;> (rintro ⟨a, b⟩; exact ⟨a.symm, b.symm⟩)
    · simp; rw [eq_comm, @eq_comm _ f.size]; tauto

/-- C07: a successful reading records the time and size the file has at its end -/
theorem C07_recorded (env : Env) (reg : List HKey) (f stat : FileSt) (s : Sdf)
    (h : (s.read env reg f stat).2 = none) :
    (s.read env reg f stat).1.mtime = stat.mtime ∧ (s.read env reg f stat).1.filesize = stat.size := by
  unfold Sdf.read at h ⊢
  cases hd : dissectFile f.node with
  | error e => rw [hd] at h; simp at h
  | ok texts =>
    rw [hd] at h
    simp only [Res.eval_ok] at h ⊢
    cases hfe : forEach (Sdf.readBlock env reg) texts s with
    | mk s1 e1 =>
      rw [hfe] at h
      cases e1 with
      | some e => simp [Res.andThen] at h
      | none =>
        have hre : Res.andThen (s1, none) (Sdf.finish stat) = Sdf.finish stat s1 := rfl
        rw [hre] at h ⊢
        obtain ⟨_, _, _, a, b, _⟩ := finish_ok stat s1 (Sdf.finish stat s1).1
          (Prod.ext rfl h)
        exact ⟨b, a⟩

/-- C07: ... also when the object is made -/
theorem C07_recorded_open (env : Env) (reg : List HKey) (name : Str) (f stat : FileSt) (s : Sdf)
    (h : Sdf.openFile env reg name f stat = .ok s) : s.mtime = stat.mtime ∧ s.filesize = stat.size := by
  unfold Sdf.openFile at h
  split at h
  · simp at h
  · split at h
    · simp at h
    · have := C07_recorded env reg f stat { fileName := name }
      cases hr : Sdf.read env reg f stat { fileName := name } with
      | mk s1 e1 =>
        rw [hr] at h this
        cases e1 with
        | some e => simp at h
        | none => simp only [Except.ok.injEq] at h; subst h; exact this rfl

/-- C07: what is recorded is not changed by reading attributes of scans -/
theorem C07_access (env : Env) (reg : List HKey) (n attr : Str) (s : Sdf) :
    (s.access env reg n attr).1.mtime = s.mtime ∧
    (s.access env reg n attr).1.filesize = s.filesize := by
  unfold Sdf.access
  cases s.scans.get? n <;> exact ⟨rfl, rfl⟩

/-- C07: without an update `refresh()` returns None and changes nothing -/
theorem C07_no_update (env : Env) (reg : List HKey) (f stat : FileSt) (s : Sdf)
    (h : s.updateAvailable f = .ok false) : s.refresh env reg f stat = ((s, none), none) := by
  unfold Sdf.refresh; rw [h]; rfl

/-- C07: with an update a successful `refresh()` reads the file and returns the name of the scan that
was the last one before -/
theorem C07_update (env : Env) (reg : List HKey) (f stat : FileSt) (s : Sdf)
    (h : s.updateAvailable f = .ok true) :
    (s.refresh env reg f stat).1 = s.read env reg f stat ∧
    ((s.read env reg f stat).2 = none → (s.refresh env reg f stat).2 = s.lastScan) := by
  unfold Sdf.refresh
  rw [h]
  dsimp only
  cases hr : (s.read env reg f stat).2 with
  | none => exact ⟨rfl, fun _ => rfl⟩
  | some e => exact ⟨rfl, fun h => by simp at h⟩

omit [UniDB] in
/-- C07: for a missing file both raise an OSError -/
theorem C07_missing (f : FileSt) (s : Sdf) (hf : f.node = .missing) :
    s.updateAvailable f = .error .OSError := by
  unfold Sdf.updateAvailable; rw [hf]

/-! ## C65: changes are not overlooked -/

/-- C65 (partial): if the file did not change while it was read and the time or the size changes
whenever the content does, then `update_available` is true as soon as the content is another one.
Missing: a change while the file is read (`C65_lost_update`). -/
theorem C65_no_change_overlooked_partial (env : Env) (reg : List HKey) (name : Str) (f g : FileSt)
    (s : Sdf) (h : Sdf.openFile env reg name f f = .ok s) (hg : g.node ≠ .missing)
    (hstat : f.node ≠ g.node → f.mtime ≠ g.mtime ∨ f.size ≠ g.size) (hc : f.node ≠ g.node) :
    s.updateAvailable g = .ok true := by
  obtain ⟨h1, h2⟩ := C07_recorded_open env reg name f f s h
  rw [(C07_decision g s hg).2, h1, h2]
  rintro ⟨a, b⟩
  rcases hstat hc with h | h
  · exact h a.symm
  · exact h b.symm

/-- C65: same after a refresh -/
theorem C65_no_change_overlooked_refresh_partial (env : Env) (reg : List HKey) (f g : FileSt)
    (s : Sdf) (hu : s.updateAvailable f = .ok true) (h : (s.refresh env reg f f).1.2 = none)
    (hg : g.node ≠ .missing)
    (hstat : f.node ≠ g.node → f.mtime ≠ g.mtime ∨ f.size ≠ g.size) (hc : f.node ≠ g.node) :
    (s.refresh env reg f f).1.1.updateAvailable g = .ok true := by
  obtain ⟨e, _⟩ := C07_update env reg f f s hu
  rw [e] at h ⊢
  obtain ⟨h1, h2⟩ := C07_recorded env reg f f s h
  rw [(C07_decision g _ hg).2, h1, h2]
  rintro ⟨a, b⟩
  rcases hstat hc with h | h
  · exact h a.symm
  · exact h b.symm

end

/-- C65 fails when a scan is written after the text was read and before time and size are taken: the
new scan is not in the object and no update is reported, although time and size did change. -/
theorem C65_lost_update :
    (let f := fileAt (demoHead ++ scanA) 1
     let g := fileAt (demoHead ++ scanA ++ scanB) 2
     match @Sdf.openFile asciiDB demoEnv HKey.all p!"demo.dat" f g with
     | .error _ => none
     | .ok s => some (s.scans.keys, (s.updateAvailable g).toOption)) = some ([p!"1"], some false) := by
  decide +kernel

end S2N.Props

import Verif.Props.ScanList
/-
What `refresh()` does to the identities of scans and headers.
-/
namespace S2N.Props
open S2N S2N.Py S2N.Spec

/-- text of the scan named by `last_scan` -/
def lastRaw (sh : Shape) (r : Ref) : Str := ((Dict.get? sh.scans r.text).map Ident.raw).getD []

/-- effect of a section on the identities when the file was read before -/
def absStepR (sh : Shape) (t : Str) : Shape :=
  match sh.lastScan with
  | none => absStep sh t
  | some r =>
    if isScanText t then
      if sh.scans.any (fun p => strip p.2.raw == strip t) ∧ lastRaw sh r ≠ t then
        { sh with headers := if sh.headers = [] then [(Obj.newHeader sh.fileName []).ident] else sh.headers }
      else if Sdf.beginning t = Sdf.beginning (lastRaw sh r) then
        absStep { sh with scans := Dict.del sh.scans r.text, lastScan := none } t
      else absStep sh t
    else absStep sh t

theorem get?_map_ident (d : Dict Obj) (k : Str) :
    Dict.get? (d.map (fun p => (p.1, p.2.ident))) k = (Dict.get? d k).map Obj.ident := by
  induction d with
  | nil => rfl
  | cons p d ih =>
    obtain ⟨k', v⟩ := p
    rw [List.map_cons, Dict.get?_cons, Dict.get?_cons]
    split <;> simp_all

theorem del_map_ident (d : Dict Obj) (k : Str) :
    (d.del k).map (fun p => (p.1, p.2.ident)) = Dict.del (d.map (fun p => (p.1, p.2.ident))) k := by
  induction d with
  | nil => rfl
  | cons p d ih =>
    obtain ⟨k', v⟩ := p
    simp only [Dict.del, List.map_cons]
    split
    · rfl
    · simp [ih]

theorem rawOf_pos (s : Sdf) (r : Ref) (h : Positive r.text) :
    s.rawOf r = match s.scans.get? r.text with
      | none => .error .AttributeError
      | some x => .ok x.raw := by
  unfold Sdf.rawOf
  rw [getScan_pos s r h]
  cases s.scans.get? r.text <;> rfl

theorem lastRaw_shape (s : Sdf) (r : Ref) (x : Obj) (h : s.scans.get? r.text = some x) :
    lastRaw (shape s) r = x.raw := by
  unfold lastRaw shape
  simp only [get?_map_ident, h]
  rfl

theorem any_shape (s : Sdf) (t : Str) :
    (s.scans.any (fun p => strip p.2.raw == strip t)) =
      ((shape s).scans.any (fun p => strip p.2.raw == strip t)) := by
  simp [shape, List.any_map, Function.comp_def, Obj.ident]

/-- the effect of a scan section -/
theorem procS_abs (part : Str) (s : Sdf) (l : Str) (hfl : Sdf.firstLine part = .ok l)
    (hk : isScanText part = true) (hkE : isHeaderText part = false) (hh : headline part = l)
    (hp : ∀ r, s.lastScan = some r → Positive r.text) (hok : (s.procS part).2 = none) :
    shape (s.procS part).1 = absStepR (shape s) part := by
  have hadd : ∀ (s0 : Sdf) (hs0 : s0.headers ≠ [])
      (h : (Sdf.addScan part (s0.headers.length - 1) s0).2 = none),
      shape (Sdf.addScan part (s0.headers.length - 1) s0).1 = absStep (shape s0) part := by
    intro s0 hs0 h
    have ha := addScan_shape part _ s0 l hfl h
    simp only at ha
    rw [ha]
    unfold absStep
    rw [hkE, hk, hh]
    simp [shape, hs0, freeName_map]
  let s1 : Sdf := if s.headers = [] then { s with headers := [Obj.newHeader s.fileName []] } else s
  have hs1 : s1.headers ≠ [] := by
    simp only [s1]
    split
    · simp
    · assumption
  have hsc : s1.scans = s.scans := by simp only [s1]; split <;> rfl
  have hla : s1.lastScan = s.lastScan := by simp only [s1]; split <;> rfl
  have hsh : shape s1 = { shape s with headers :=
      if (shape s).headers = [] then [(Obj.newHeader s.fileName []).ident] else (shape s).headers } := by
    simp only [s1]
    by_cases h : s.headers = []
    · simp [shape, h]
    · simp [shape, h]
  have habs : ∀ sc la, absStep { shape s1 with scans := sc, lastScan := la } part =
      absStep { shape s with scans := sc, lastScan := la } part := by
    intro sc la
    rw [hsh]
    unfold absStep
    rw [hkE, hk]
    by_cases h : (shape s).headers = []
    · have h' : s.headers = [] := by simpa [shape] using h
      simp [shape, h']
    · simp [h]
  have hunf : s.procS part = (if s1.scans.any (fun p => strip p.2.raw == strip part) then
      match s1.lastScan with
      | none => (Sdf.dropLastScan part s1).andThen (Sdf.addScan part (s1.headers.length - 1))
      | some r => Res.eval (s1.rawOf r) s1 fun raw =>
          if raw ≠ part then Res.ok s1 else
            (Sdf.dropLastScan part s1).andThen (Sdf.addScan part (s1.headers.length - 1))
    else (Sdf.dropLastScan part s1).andThen (Sdf.addScan part (s1.headers.length - 1))) := rfl
  rw [hunf] at hok ⊢
  cases hl : s.lastScan with
  | none =>
    have hd : Sdf.dropLastScan part s1 = Res.ok s1 := by
      unfold Sdf.dropLastScan; rw [hla, hl]
    have hsl : (shape s).lastScan = none := hl
    have hR : absStepR (shape s) part = absStep (shape s) part := by
      unfold absStepR; rw [hsl]
    have : (Sdf.dropLastScan part s1).andThen (Sdf.addScan part (s1.headers.length - 1)) =
        Sdf.addScan part (s1.headers.length - 1) s1 := by rw [hd]; rfl
    rw [this] at hok ⊢
    rw [hla, hl] at hok ⊢
    simp only [ite_self] at hok ⊢
    rw [hadd s1 hs1 hok, hR]
    have := habs (shape s).scans (shape s).lastScan
    have e : { shape s1 with scans := (shape s).scans, lastScan := (shape s).lastScan } = shape s1 := by
      rw [hsh]
    rw [e] at this
    exact this
  | some r =>
    have hpos := hp r hl
    have hsl : (shape s).lastScan = some r := hl
    cases hg : s.scans.get? r.text with
    | none =>
      exfalso
      have hraw : s1.rawOf r = .error .AttributeError := by rw [rawOf_pos s1 r hpos, hsc, hg]
      have hd : Sdf.dropLastScan part s1 = Res.raise s1 .AttributeError := by
        unfold Sdf.dropLastScan; rw [hla, hl]; simp only [hraw]; rfl
      rw [hla, hl, hd] at hok
      simp only [hraw] at hok
      split at hok <;> simp [Res.raise, Res.eval, Res.andThen] at hok
    | some x =>
      have hraw : s1.rawOf r = .ok x.raw := by rw [rawOf_pos s1 r hpos, hsc, hg]
      have hlr := lastRaw_shape s r x hg
      have hhas : s1.scans.has r.text = true := by
        unfold Dict.has; rw [hsc, hg]; rfl
      have hd : Sdf.dropLastScan part s1 = if Sdf.beginning part = Sdf.beginning x.raw then
          Res.ok { s1 with scans := s1.scans.del r.text, lastScan := none } else Res.ok s1 := by
        unfold Sdf.dropLastScan
        rw [hla, hl]
        simp only [hraw, Res.eval_ok, hhas, if_true]
      have hadd2 : ∀ (h : ((Sdf.dropLastScan part s1).andThen (Sdf.addScan part (s1.headers.length - 1))).2 = none),
          shape ((Sdf.dropLastScan part s1).andThen (Sdf.addScan part (s1.headers.length - 1))).1 =
          (if Sdf.beginning part = Sdf.beginning x.raw then
            absStep { shape s with scans := Dict.del (shape s).scans r.text, lastScan := none } part
          else absStep (shape s) part) := by
        intro h
        rw [hd] at h ⊢
        by_cases hb : Sdf.beginning part = Sdf.beginning x.raw
        · rw [if_pos hb] at h ⊢
          rw [if_pos hb]
          have e1 : (Res.ok { s1 with scans := s1.scans.del r.text, lastScan := none }).andThen
              (Sdf.addScan part (s1.headers.length - 1)) = Sdf.addScan part (s1.headers.length - 1)
                { s1 with scans := s1.scans.del r.text, lastScan := none } := rfl
          rw [e1] at h ⊢
          rw [hadd { s1 with scans := s1.scans.del r.text, lastScan := none } hs1 h]
          rw [← habs]
          congr 1
          simp only [shape, hsc, del_map_ident]
        · rw [if_neg hb] at h ⊢
          rw [if_neg hb]
          have e1 : (Res.ok s1).andThen (Sdf.addScan part (s1.headers.length - 1)) =
              Sdf.addScan part (s1.headers.length - 1) s1 := rfl
          rw [e1] at h ⊢
          rw [hadd s1 hs1 h]
          have := habs (shape s).scans (shape s).lastScan
          have e : { shape s1 with scans := (shape s).scans, lastScan := (shape s).lastScan } = shape s1 := by
            rw [hsh]
          rw [e] at this
          exact this
      have hR : absStepR (shape s) part =
          if (shape s).scans.any (fun p => strip p.2.raw == strip part) ∧ x.raw ≠ part then
            { shape s with headers := if (shape s).headers = [] then [(Obj.newHeader (shape s).fileName []).ident] else (shape s).headers }
          else if Sdf.beginning part = Sdf.beginning x.raw then
            absStep { shape s with scans := Dict.del (shape s).scans r.text, lastScan := none } part
          else absStep (shape s) part := by
        unfold absStepR
        simp only [hsl, hk, if_true, hlr]
      rw [hR]
      rw [hla, hl] at hok ⊢
      simp only [hraw, Res.eval_ok] at hok ⊢
      rw [hsc, any_shape] at hok ⊢
      by_cases hany : ((shape s).scans.any fun p => strip p.2.raw == strip part) = true
      · rw [if_pos hany] at hok ⊢
        by_cases hne : x.raw ≠ part
        · rw [if_pos hne] at hok ⊢
          rw [if_pos ⟨hany, hne⟩]
          exact hsh
        · rw [if_neg hne] at hok ⊢
          rw [if_neg (fun h => hne h.2)]
          exact hadd2 hok
      · rw [if_neg hany] at hok ⊢
        rw [if_neg (fun h => hany h.1)]
        exact hadd2 hok

section
variable [UniDB]

theorem readBlock_absR (env : Env) (reg : List HKey) (hr : reg.Perm HKey.all) (t : Str)
    (ht : IsSectionText t) (s : Sdf) (hp : ∀ r, s.lastScan = some r → Positive r.text)
    (hok : (s.readBlock env reg t).2 = none) :
    shape (s.readBlock env reg t).1 = absStepR (shape s) t := by
  obtain ⟨first, rest, e, hst, hnb⟩ := ht
  have hfne := startsSection_ne_nil hst
  have hfl : Sdf.firstLine t = .ok first := by rw [e]; exact firstLine_section first rest hnb hfne
  have hhl : headline t = first := by
    unfold Sdf.firstLine at hfl
    unfold headline
    cases hs : splitlines t with
    | nil => rw [hs] at hfl; simp at hfl
    | cons a as => rw [hs] at hfl; simpa using hfl
  have htne : t ≠ [] := by
    rintro rfl; simp [Sdf.firstLine, splitlines, splitlinesAux] at hfl
  have hnl : '\n' ∉ first := by
    intro h
    have := hnb first (by simp) '\n' h
    simp [isLineBreak] at this
  obtain ⟨x, hx, hw⟩ : ∃ x, (x = 'E' ∨ x = 'F' ∨ x = 'S') ∧ firstWordIs ['#', x] first := by
    rcases hst with h | h | h
    · exact ⟨'E', by simp, h⟩
    · exact ⟨'F', by simp, h⟩
    · exact ⟨'S', by simp, h⟩
  obtain ⟨hkE, hkS⟩ := section_kind t first rest e x hw
  have hnotscan : isScanText t = false → absStepR (shape s) t = absStep (shape s) t := by
    intro h
    unfold absStepR
    rw [h]
    cases (shape s).lastScan <;> rfl
  unfold Sdf.readBlock at hok ⊢
  rw [if_neg (by simpa using htne), hfl] at hok ⊢
  simp only [Res.eval_ok] at hok ⊢
  cases hg : getControlKey reg first with
  | error er => rw [hg] at hok; simp at hok
  | ok o =>
    rw [hg] at hok
    simp only [Res.eval_ok] at hok ⊢
    cases o with
    | none => simp at hok
    | some k =>
      obtain ⟨hkt, _⟩ := block_key reg hr first hnl x hx hw k hg
      have hks := keyText_section k x hkt
      rcases hx with rfl | rfl | rfl
      · have hk := hks.1 rfl
        subst hk
        simp only at hok ⊢
        rw [procE_shape env reg t s hok, hnotscan (by rw [hkS]; rfl)]
        unfold absStep
        rw [hkE]
        simp only [beq_self_eq_true, if_true]
        have : (s.headers.any fun h => strip h.raw == strip t) =
            ((shape s).headers.any fun h => strip h.raw == strip t) := by
          simp [shape, List.any_map, Function.comp_def, Obj.ident]
        rw [this]
        rfl
      · have hk := hks.2.1 rfl
        subst hk
        simp only
        rw [hnotscan (by rw [hkS]; rfl)]
        unfold absStep
        rw [hkE, hkS]
        have : shape (Sdf.procF t s) = shape s := by
          unfold Sdf.procF
          split <;> rfl
        simp [this]
      · have hk := hks.2.2 rfl
        subst hk
        simp only at hok ⊢
        obtain ⟨h1, h2⟩ := andThen_none hok
        rw [Res.andThen_of_none h1, dateLatest_shape]
        exact procS_abs t s first hfl (by rw [hkS]; rfl) (by rw [hkE]; rfl) hhl hp h1

omit [UniDB] in
theorem absStepR_last (sh : Shape) (t : Str) (r : Ref) (h : (absStepR sh t).lastScan = some r) :
    sh.lastScan = some r := by
  unfold absStepR at h
  cases hl : sh.lastScan with
  | none => rw [hl] at h; simp only [absStep_last, hl] at h; exact h
  | some r' =>
    rw [hl] at h
    simp only at h
    split at h
    · split at h
      · exact h
      · split at h
        · rw [absStep_last] at h; cases h
        · rw [absStep_last, hl] at h; exact h
    · rw [absStep_last, hl] at h; exact h

theorem blocks_absR (env : Env) (reg : List HKey) (hr : reg.Perm HKey.all) (texts : List Str)
    (ht : ∀ t ∈ texts, IsSectionText t) (s : Sdf) (hp : ∀ r, s.lastScan = some r → Positive r.text)
    (hok : (forEach (Sdf.readBlock env reg) texts s).2 = none) :
    shape (forEach (Sdf.readBlock env reg) texts s).1 = texts.foldl absStepR (shape s) := by
  induction texts generalizing s with
  | nil => rfl
  | cons t texts ih =>
    obtain ⟨h1, h2⟩ := forEach_cons_ok hok
    have hs := readBlock_absR env reg hr t (ht t (by simp)) s hp h1
    simp only [forEach]
    rw [Res.andThen_of_none h1]
    have hp' : ∀ r, (Sdf.readBlock env reg t s).1.lastScan = some r → Positive r.text := by
      intro r h
      apply hp r
      have : (shape (Sdf.readBlock env reg t s).1).lastScan = some r := h
      rw [hs] at this
      exact absStepR_last _ _ _ this
    simp only [forEach, Res.andThen_of_none h1] at hok
    rw [ih (fun t h => ht t (by simp [h])) _ hp' hok, List.foldl_cons, hs]

end

/-! ## Histories of refreshes, on identities -/

/-- identity of a scan up to white space at the ends of its text -/
def stripped (i : Ident) : Ident := { i with raw := strip i.raw }

/-- identities up to white space at the ends of the texts of the scans, without `last_scan` -/
def core (sh : Shape) : Str × List Ident × List (Str × Ident) :=
  (sh.fileName, sh.headers, sh.scans.map (fun p => (p.1, stripped p.2)))

theorem core_freeName {a b : Shape} (h : core a = core b) (n : Str) :
    Sdf.freeName a.scans n = Sdf.freeName b.scans n := by
  have h3 : a.scans.map (fun p => (p.1, stripped p.2)) = b.scans.map (fun p => (p.1, stripped p.2)) :=
    congrArg (fun x => x.2.2) h
  rw [← freeName_map a.scans stripped n, ← freeName_map b.scans stripped n, h3]

/-- the same section, or one that differs by white space at the end, has the same effect -/
theorem core_absStep {a b : Shape} (h : core a = core b) (t u : Str) (hE : isHeaderText t = isHeaderText u)
    (hS : isScanText t = isScanText u) (htu : (isHeaderText t = true → t = u)) (hh : headline t = headline u)
    (hs : strip t = strip u) :
    core (absStep a t) = core (absStep b u) := by
  have hf : a.fileName = b.fileName := congrArg (fun x => x.1) h
  have hhd : a.headers = b.headers := congrArg (fun x => x.2.1) h
  have h3 : a.scans.map (fun p => (p.1, stripped p.2)) = b.scans.map (fun p => (p.1, stripped p.2)) :=
    congrArg (fun x => x.2.2) h
  unfold absStep
  by_cases h1 : isHeaderText t = true
  · have := htu h1
    subst this
    rw [hhd, hf]
    simp only [h1, if_true]
    split
    · exact h
    · simp only [core, h3]
  · rw [← hE, ← hS]
    simp only [if_neg h1]
    by_cases h2 : isScanText t = true
    · simp only [if_pos h2]
      simp only [core, hhd, hf, hh, core_freeName h, List.map_append, h3, List.map_cons, List.map_nil]
      simp only [stripped, hs]
    · simp only [if_neg h2]
      exact h

theorem core_absStep' {a b : Shape} (h : core a = core b) (t : Str) :
    core (absStep a t) = core (absStep b t) :=
  core_absStep h t t rfl rfl (fun _ => rfl) rfl rfl

theorem core_fold {a b : Shape} (h : core a = core b) (ts : List Str) :
    core (ts.foldl absStep a) = core (ts.foldl absStep b) := by
  induction ts generalizing a b with
  | nil => exact h
  | cons t ts ih => exact ih (core_absStep' h t)

theorem beginning_strip {t u : Str} (h : strip t = strip u) : Sdf.beginning t = Sdf.beginning u := by
  unfold Sdf.beginning; rw [h]

theorem absStepR_none {sh : Shape} (h : sh.lastScan = none) (t : Str) :
    absStepR sh t = absStep sh t := by
  unfold absStepR; rw [h]

theorem foldR_none {sh : Shape} (h : sh.lastScan = none) (ts : List Str) :
    ts.foldl absStepR sh = ts.foldl absStep sh := by
  induction ts generalizing sh with
  | nil => rfl
  | cons t ts ih =>
    rw [List.foldl_cons, List.foldl_cons, absStepR_none h]
    exact ih (by rw [absStep_last]; exact h)

theorem core_raws {a b : Shape} (h : core a = core b) :
    a.scans.map (fun p => strip p.2.raw) = b.scans.map (fun p => strip p.2.raw) := by
  have h3 : a.scans.map (fun p => (p.1, stripped p.2)) = b.scans.map (fun p => (p.1, stripped p.2)) :=
    congrArg (fun x => x.2.2) h
  have := congrArg (List.map (fun p : Str × Ident => p.2.raw)) h3
  simpa [List.map_map, Function.comp_def, stripped] using this

/-- texts of the scans, up to white space at their ends -/
theorem raws_of {sh : Shape} {name : Str} {ts : List Str}
    (h : core sh = core (ts.foldl absStep ⟨name, [], [], none⟩)) :
    sh.scans.map (fun p => strip p.2.raw) = (ts.filter isScanText).map strip := by
  rw [core_raws h]
  have := congrArg (List.map strip) (fold_raws ts ⟨name, [], [], none⟩)
  simpa [List.map_map, Function.comp_def] using this

theorem any_of {sh : Shape} {name : Str} {ts : List Str}
    (h : core sh = core (ts.foldl absStep ⟨name, [], [], none⟩)) (t : Str) :
    (sh.scans.any (fun p => strip p.2.raw == strip t)) = true ↔
      ∃ u ∈ ts, isScanText u = true ∧ strip u = strip t := by
  have hr := raws_of h
  constructor
  · intro ha
    obtain ⟨p, hp, e⟩ := List.any_eq_true.1 ha
    have : strip p.2.raw ∈ sh.scans.map (fun p => strip p.2.raw) := List.mem_map.2 ⟨p, hp, rfl⟩
    rw [hr] at this
    obtain ⟨u, hu, eu⟩ := List.mem_map.1 this
    have hu := List.mem_filter.1 hu
    exact ⟨u, hu.1, hu.2, by rw [eu]; simpa using e⟩
  · rintro ⟨u, hu, hs, e⟩
    have : strip u ∈ sh.scans.map (fun p => strip p.2.raw) := by
      rw [hr]; exact List.mem_map.2 ⟨u, List.mem_filter.2 ⟨hu, hs⟩, rfl⟩
    obtain ⟨p, hp, ep⟩ := List.mem_map.1 this
    exact List.any_eq_true.2 ⟨p, hp, by simp [ep, e]⟩

theorem absStep_headers_grow (sh : Shape) (t : Str) : ∃ hs, (absStep sh t).headers = sh.headers ++ hs := by
  obtain ⟨hs, e⟩ := fold_headers [t] sh
  exact ⟨hs, e⟩

theorem fold_has_header (ts : List Str) (sh : Shape) (t : Str) (ht : t ∈ ts) (hh : isHeaderText t = true) :
    (ts.foldl absStep sh).headers.any (fun h => strip h.raw == strip t) = true := by
  induction ts generalizing sh with
  | nil => simp at ht
  | cons u ts ih =>
    rw [List.foldl_cons]
    rcases List.mem_cons.1 ht with rfl | ht
    · have h1 : (absStep sh t).headers.any (fun h => strip h.raw == strip t) = true := by
        unfold absStep
        rw [if_pos hh]
        split
        · assumption
        · simp [Obj.newHeader, Obj.ident]
      obtain ⟨hs, e⟩ := fold_headers ts (absStep sh t)
      rw [e, List.any_append, h1]; rfl
    · exact ih _ ht

/-- the headers are there once a scan was read -/
theorem scan_headers (sh : Shape) (t : Str) (hs : isScanText t = true) (hE : isHeaderText t = false) :
    (absStep sh t).headers ≠ [] := by
  unfold absStep
  rw [hE, hs]
  simp only [Bool.false_eq_true, if_false, if_true]
  split
  · simp
  · assumption

theorem absStep_other (sh : Shape) (t : Str) (hs : isScanText t = false) (hE : isHeaderText t = false) :
    absStep sh t = sh := by
  unfold absStep
  rw [hE, hs]
  simp

theorem scan_not_header {t : Str} (h : isScanText t = true) : isHeaderText t = false := by
  cases he : isHeaderText t with
  | false => rfl
  | true => rw [header_not_scan t he] at h; cases h

/-- sections that were read before, except the last scan, change nothing -/
theorem old_section (sh : Shape) (name : Str) (pre : List Str) (l t : Str) (r : Ref)
    (hcore : core sh = core ((pre ++ [l]).foldl absStep ⟨name, [], [], none⟩))
    (hl : isScanText l = true) (ht : t ∈ pre) (hlast : sh.lastScan = some r)
    (hraw : strip (lastRaw sh r) = strip l)
    (hd : isScanText t = true → strip t ≠ strip l) : absStepR sh t = sh := by
  have hne : sh.headers ≠ [] := by
    have : sh.headers = ((pre ++ [l]).foldl absStep ⟨name, [], [], none⟩).headers :=
      congrArg (fun x => x.2.1) hcore
    rw [this, List.foldl_append]
    exact scan_headers _ _ hl (scan_not_header hl)
  unfold absStepR
  rw [hlast]
  simp only
  by_cases hs : isScanText t = true
  · rw [if_pos hs, if_pos, if_neg hne]
    · cases sh; simp only at hlast; subst hlast; rfl
    · refine ⟨(any_of hcore t).2 ⟨t, by simp [ht], hs, rfl⟩, ?_⟩
      intro e
      apply hd hs
      rw [← hraw, e]
  · rw [if_neg hs]
    have hs : isScanText t = false := by simpa using hs
    by_cases hE : isHeaderText t = true
    · have : sh.headers = ((pre ++ [l]).foldl absStep ⟨name, [], [], none⟩).headers :=
        congrArg (fun x => x.2.1) hcore
      have h1 := fold_has_header (pre ++ [l]) ⟨name, [], [], none⟩ t (by simp [ht]) hE
      rw [← this] at h1
      unfold absStep
      rw [if_pos hE, if_pos h1]
    · exact absStep_other sh t hs (by simpa using hE)

theorem lookup_append {α : Type} (d e : Dict α) (k : Str) (x : α) (h : Dict.get? d k = some x) :
    Dict.get? (d ++ e) k = some x := by
  unfold Dict.get? at *
  rw [List.lookup_append, h]; rfl

/-- new sections after a last scan that stays as it is -/
theorem new_sections (name : Str) (done new : List Str) (l : Str) (r : Ref) (sh : Shape)
    (hcore : core sh = core (done.foldl absStep ⟨name, [], [], none⟩))
    (hlast : sh.lastScan = some r) (hl : l ∈ done) (hls : isScanText l = true)
    (hraw : ∃ x, Dict.get? sh.scans r.text = some x ∧ strip x.raw = strip l)
    (hd : ((done ++ new).filter isScanText).Pairwise (fun t u => Sdf.beginning t ≠ Sdf.beginning u)) :
    core (new.foldl absStepR sh) = core ((done ++ new).foldl absStep ⟨name, [], [], none⟩) := by
  induction new generalizing sh done with
  | nil => simpa using hcore
  | cons t new ih =>
    obtain ⟨x, hx, hxr⟩ := hraw
    have hlr : lastRaw sh r = x.raw := by unfold lastRaw; rw [hx]; rfl
    have hbt : isScanText t = true → ∀ u ∈ done, isScanText u = true →
        Sdf.beginning u ≠ Sdf.beginning t := by
      intro hs u hu hus
      rw [List.filter_append, List.pairwise_append] at hd
      exact hd.2.2 u (List.mem_filter.2 ⟨hu, hus⟩) t (by simp [hs])
    have hstep : absStepR sh t = absStep sh t := by
      unfold absStepR
      rw [hlast]
      simp only
      by_cases hs : isScanText t = true
      · rw [if_pos hs, if_neg, if_neg]
        · rw [hlr]
          intro e
          exact hbt hs l hl hls (by rw [beginning_strip hxr.symm, e])
        · rintro ⟨ha, _⟩
          obtain ⟨u, hu, hus, e⟩ := (any_of hcore t).1 ha
          exact hbt hs u hu hus (beginning_strip e)
      · rw [if_neg hs]
    rw [List.foldl_cons, hstep]
    have := ih (done ++ [t]) (absStep sh t) (by rw [List.foldl_append]; exact core_absStep' hcore t)
      (by rw [absStep_last]; exact hlast) (by simp [hl])
      ⟨x, by rw [abs_scans]; exact lookup_append _ _ _ _ hx, hxr⟩ (by simpa using hd)
    simpa using this

theorem del_last {α : Type} (d : Dict α) (n : Str) (x : α) (h : n ∉ Dict.keys d) :
    Dict.del (d ++ [(n, x)]) n = d := by
  induction d with
  | nil => simp [Dict.del]
  | cons p d ih =>
    obtain ⟨k, v⟩ := p
    simp only [Dict.keys, List.map_cons, List.mem_cons, not_or] at h
    rw [List.cons_append, Dict.del, if_neg (fun e => h.1 e.symm), ih h.2]

theorem fold_congr_id {α β : Type} (f : β → α → β) (b : β) (l : List α) (h : ∀ a ∈ l, f b a = b) :
    l.foldl f b = b := by
  induction l with
  | nil => rfl
  | cons a l ih => rw [List.foldl_cons, h a (by simp)]; exact ih (fun a ha => h a (by simp [ha]))

theorem get_last {α : Type} (d : Dict α) (n : Str) (x : α) (h : n ∉ Dict.keys d) :
    Dict.get? (d ++ [(n, x)]) n = some x := by
  rw [← Dict.set_of_not_mem d n x h]
  exact Dict.get?_set_self d n x

/-- The sections `pre ++ [l]` were read before, the last of them being the scan that `last_scan`
refers to; now the file has the sections `pre ++ [l'] ++ new`, where `l'` begins as `l` does. -/
theorem fold_refresh (name : Str) (pre new : List Str) (l l' : Str) (sh : Shape) (n : Str) (x : Ident)
    (scans : List (Str × Ident))
    (hcore : core sh = core ((pre ++ [l]).foldl absStep ⟨name, [], [], none⟩))
    (hsc : sh.scans = scans ++ [(n, x)]) (hnd : (Dict.keys sh.scans).Nodup)
    (hlast : sh.lastScan = some (.str n))
    (hl : isScanText l = true) (hl' : isScanText l' = true) (hhead : headline l = headline l')
    (hbeg : Sdf.beginning l' = Sdf.beginning l)
    (hd : ((pre ++ [l'] ++ new).filter isScanText).Pairwise
      (fun t u => Sdf.beginning t ≠ Sdf.beginning u)) :
    core ((pre ++ [l'] ++ new).foldl absStepR sh) =
      core ((pre ++ [l'] ++ new).foldl absStep ⟨name, [], [], none⟩) := by
  have hnk : n ∉ Dict.keys scans := by
    rw [hsc] at hnd
    simp only [Dict.keys, List.map_append, List.map_cons, List.map_nil, List.nodup_append] at hnd
    intro h
    exact hnd.2.2 n h n (by simp) rfl
  have hget : Dict.get? sh.scans n = some x := by rw [hsc]; exact get_last _ _ _ hnk
  have hlr : lastRaw sh (.str n) = x.raw := by
    unfold lastRaw; rw [show (Ref.str n).text = n from rfl, hget]; rfl
  -- scans of the core
  have hfold : (pre ++ [l]).foldl absStep ⟨name, [], [], none⟩ =
      absStep (pre.foldl absStep ⟨name, [], [], none⟩) l := by rw [List.foldl_append]; rfl
  have hE := scan_not_header hl
  have hE' := scan_not_header hl'
  have hscans : scans.map (fun p => (p.1, stripped p.2)) =
      (pre.foldl absStep ⟨name, [], [], none⟩).scans.map (fun p => (p.1, stripped p.2)) ∧
      strip x.raw = strip l := by
    have h3 : sh.scans.map (fun p => (p.1, stripped p.2)) =
        ((pre ++ [l]).foldl absStep ⟨name, [], [], none⟩).scans.map (fun p => (p.1, stripped p.2)) :=
      congrArg (fun x => x.2.2) hcore
    rw [hfold, abs_scans, if_pos hl, hsc, List.map_append, List.map_append] at h3
    have := List.append_inj' h3 (by simp)
    refine ⟨this.1, ?_⟩
    have h4 := this.2
    simp only [List.map_cons, List.map_nil, List.cons.injEq, and_true, Prod.mk.injEq] at h4
    exact congrArg Ident.raw h4.2
  have hraw : strip (lastRaw sh (.str n)) = strip l := by rw [hlr]; exact hscans.2
  have hpre : ∀ t ∈ pre, isScanText t = true → Sdf.beginning t ≠ Sdf.beginning l' := by
    intro t ht hts
    rw [List.append_assoc, List.filter_append, List.pairwise_append] at hd
    exact hd.2.2 t (List.mem_filter.2 ⟨ht, hts⟩) l' (by simp [hl'])
  -- phase 1
  have hp1 : pre.foldl absStepR sh = sh := by
    apply fold_congr_id
    intro t ht
    apply old_section sh name pre l t (.str n) hcore hl ht hlast hraw
    intro hts e
    exact hpre t ht hts (by rw [hbeg]; exact beginning_strip e)
  rw [List.foldl_append, List.foldl_append, hp1]
  simp only [List.foldl_cons, List.foldl_nil]
  have hb2 : Sdf.beginning l' = Sdf.beginning (lastRaw sh (.str n)) := by
    rw [hbeg]; exact beginning_strip hraw.symm
  have hhdr : sh.headers = ((pre ++ [l]).foldl absStep ⟨name, [], [], none⟩).headers :=
    congrArg (fun x => x.2.1) hcore
  have hfn : sh.fileName = ((pre ++ [l]).foldl absStep ⟨name, [], [], none⟩).fileName :=
    congrArg (fun x => x.1) hcore
  have hne : sh.headers ≠ [] := by
    rw [hhdr, hfold]; exact scan_headers _ _ hl hE
  by_cases hA : (sh.scans.any (fun p => strip p.2.raw == strip l')) = true ∧ lastRaw sh (.str n) ≠ l'
  · -- the last scan stays
    have hstep : absStepR sh l' = sh := by
      unfold absStepR
      rw [hlast]
      simp only
      rw [if_pos hl', if_pos hA, if_neg hne]
      cases sh; simp only at hlast; subst hlast; rfl
    have hstrip : strip l = strip l' := by
      obtain ⟨u, hu, hus, e⟩ := (any_of hcore l').1 hA.1
      rcases List.mem_append.1 hu with hu | hu
      · exact absurd (beginning_strip e) (hpre u hu hus)
      · simp only [List.mem_singleton] at hu; subst hu; exact e
    rw [hstep]
    apply new_sections name (pre ++ [l']) new l' (.str n) sh _ hlast (by simp) hl'
      ⟨x, hget, by rw [hscans.2, hstrip]⟩ hd
    rw [hcore, hfold, List.foldl_append]
    exact core_absStep rfl l l' (by rw [hE, hE']) (by rw [hl, hl'])
      (fun h => by rw [hE] at h; cases h) hhead hstrip
  · -- the last scan is made anew
    have hstep : absStepR sh l' =
        absStep { sh with scans := Dict.del sh.scans n, lastScan := none } l' := by
      unfold absStepR
      rw [hlast]
      simp only
      rw [if_pos hl', if_neg hA, if_pos hb2]
      rfl
    have hnone : (absStepR sh l').lastScan = none := by rw [hstep, absStep_last]
    rw [foldR_none hnone, hstep]
    rw [List.foldl_append, List.foldl_append]
    apply core_fold
    simp only [List.foldl_cons, List.foldl_nil]
    -- both add the same scan
    rw [hsc, del_last _ _ _ hnk]
    have hf0 : ∀ (a : Shape) (t : Str), (absStep a t).fileName = a.fileName := by
      intro a t; unfold absStep; repeat' split
      all_goals rfl
    rw [hfold] at hhdr hfn
    rw [hf0] at hfn
    generalize hG : pre.foldl absStep ⟨name, [], [], none⟩ = g at *
    have hgh : sh.headers = if g.headers = [] then [(Obj.newHeader g.fileName []).ident] else g.headers := by
      rw [hhdr]
      unfold absStep
      rw [hE, hl]
      simp
    have hfree : ∀ w, Sdf.freeName scans w = Sdf.freeName g.scans w := by
      intro w
      rw [← freeName_map scans stripped w, ← freeName_map g.scans stripped w, hscans.1]
    unfold absStep
    rw [hE', hl']
    simp only [Bool.false_eq_true, if_false, if_true, core, hfn, List.map_append, hscans.1, hfree,
      List.map_cons, List.map_nil]
    rw [if_neg hne, hgh]

end S2N.Props
